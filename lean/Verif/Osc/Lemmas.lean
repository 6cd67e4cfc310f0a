import Verif.Osc.Spec
import Mathlib.Data.List.Forall2
import Mathlib.Data.List.ReduceOption
import Mathlib.Tactic.Ring

/-!
# Helper facts for OSC packets
-/

namespace Visr.Osc

/-! ### Numbers -/

theorem toBytes_length (w n : Nat) : (toBytes w n).length = w := by
  induction w with
  | zero => rfl
  | succ w ih => simp [toBytes, ih]

theorem number_toBytes (w n : Nat) : number (toBytes w n) = n % 256 ^ w := by
  induction w with
  | zero => simp [toBytes, number, Nat.mod_one]
  | succ w ih =>
    have hm : n % 256 ^ (w + 1) = n % 256 ^ w + 256 ^ w * (n / 256 ^ w % 256) := by rw [pow_succ, Nat.mod_mul]
    rw [toBytes, number, toBytes_length, ih, UInt8.toNat_ofNat', hm, show (2 : Nat) ^ 8 = 256 by rfl, Nat.mul_comm, Nat.add_comm]

theorem number_lt (s : List UInt8) : number s < 256 ^ s.length := by
  induction s with
  | nil => simp [number]
  | cons b s ih =>
    rw [number, List.length_cons, pow_succ]
    have := b.toNat_lt
    have h2 : b.toNat * 256 ^ s.length ≤ 255 * 256 ^ s.length := Nat.mul_le_mul_right _ (by omega)
    omega

theorem toBytes_mod (w n k : Nat) (h : w ≤ k) : toBytes w (n % 256 ^ k) = toBytes w n := by
  induction w with
  | zero => rfl
  | succ w ih =>
    rw [toBytes, toBytes, ih (by omega)]
    congr 1
    apply UInt8.toNat_inj.1
    simp only [UInt8.toNat_ofNat']
    obtain ⟨d, rfl⟩ := Nat.exists_eq_add_of_le h
    rw [show w + 1 + d = w + (1 + d) by omega, pow_add, Nat.mod_mul_right_div_self, pow_add,
      show (2 : Nat) ^ 8 = 256 ^ 1 by rfl, Nat.mod_mul_right_mod]

theorem toBytes_number (s : List UInt8) : toBytes s.length (number s) = s := by
  induction s with
  | nil => rfl
  | cons b s ih =>
    rw [List.length_cons, toBytes, number]
    have hlt := number_lt s
    congr 1
    · apply UInt8.toNat_inj.1
      rw [UInt8.toNat_ofNat', Nat.mul_comm, Nat.mul_add_div (Nat.pow_pos (by omega)), Nat.div_eq_of_lt hlt, Nat.add_zero]
      have := b.toNat_lt
      omega
    · rw [← toBytes_mod s.length _ s.length (Nat.le_refl _), Nat.mul_comm, Nat.mul_add_mod, Nat.mod_eq_of_lt hlt]
      exact ih

theorem pod_append (w n : Nat) (t : List UInt8) (h : n < 256 ^ w) : pod w (toBytes w n ++ t) = .ok n := by
  have hl := toBytes_length w n
  rw [pod, if_neg (by simp [hl])]
  rw [List.take_left' hl, number_toBytes, Nat.mod_eq_of_lt h]

/-! ### Strings -/

theorem cstring_zero (s r : List UInt8) (h : 0 ∉ s) : cstring (s ++ 0 :: r) = some (s, r) := by
  have h1 : (s ++ 0 :: r).dropWhile (· ≠ 0) = 0 :: r := by
    induction s with
    | nil => simp
    | cons c s ih =>
      simp only [List.mem_cons, not_or] at h
      rw [List.cons_append, List.dropWhile_cons_of_pos (by simpa using Ne.symm h.1), ih h.2]
  have h2 : (s ++ 0 :: r).takeWhile (· ≠ 0) = s := by
    clear h1
    induction s with
    | nil => simp
    | cons c s ih =>
      simp only [List.mem_cons, not_or] at h
      rw [List.cons_append, List.takeWhile_cons_of_pos (by simpa using Ne.symm h.1), ih h.2]
  rw [cstring, h1, h2]

theorem cstring_some (p s r : List UInt8) (h : cstring p = some (s, r)) : p = s ++ 0 :: r ∧ 0 ∉ s := by
  unfold cstring at h
  split at h
  · cases h
  · rename_i c r' hd
    injection h with h
    injection h with h1 h2
    subst h2
    have hc : c = 0 := by
      have hne : p.dropWhile (fun x => decide (x ≠ 0)) ≠ [] := by rw [hd]; simp
      have := List.head_dropWhile_not (fun x : UInt8 => decide (x ≠ 0)) hne
      simp only [hd, List.head_cons] at this
      simpa using this
    subst hc
    refine ⟨?_, ?_⟩
    · rw [← h1, ← hd]; exact (List.takeWhile_append_dropWhile).symm
    · rw [← h1]
      intro hm
      have := List.all_eq_true.1 (List.all_takeWhile (p := fun x : UInt8 => decide (x ≠ 0)) (l := p)) 0 hm
      simp at this

theorem aligned_zeros (k : Nat) (t : List UInt8) (hk : k < 4) (ht : t.length % 4 = 0) :
    aligned (List.replicate k 0 ++ t) = some t := by
  have hl : (List.replicate k (0 : UInt8) ++ t).length % 4 = k := by simp; omega
  rw [aligned, hl, List.take_left' (by simp), List.drop_left' (by simp), if_pos]
  simp [List.all_eq_true]

theorem aligned_some (p t : List UInt8) (h : aligned p = some t) :
    p = List.replicate (p.length % 4) 0 ++ t ∧ t.length % 4 = 0 := by
  unfold aligned at h
  split at h
  · rename_i hz
    injection h with h
    refine ⟨?_, by rw [← h, List.length_drop]; omega⟩
    have : p.take (p.length % 4) = List.replicate (p.length % 4) 0 := by
      apply List.eq_replicate_iff.2
      refine ⟨by rw [List.length_take]; have := Nat.mod_le p.length 4; omega, ?_⟩
      intro b hb
      have := List.all_eq_true.1 hz b hb
      simpa using this
    rw [← this, ← h, List.take_append_drop]
  · cases h

theorem oscString_eq (s : List UInt8) : oscString s = s ++ 0 :: List.replicate (3 - s.length % 4) 0 := by
  have : 4 - s.length % 4 = (3 - s.length % 4) + 1 := by omega
  rw [oscString, this, List.replicate_succ]

theorem oscString_length (s : List UInt8) : (oscString s).length % 4 = 0 := by
  rw [oscString, List.length_append, List.length_replicate]; omega

theorem read_oscString (s t : List UInt8) (h : 0 ∉ s) (ht : t.length % 4 = 0) :
    cstring (oscString s ++ t) = some (s, List.replicate (3 - s.length % 4) 0 ++ t) ∧
      aligned (List.replicate (3 - s.length % 4) 0 ++ t) = some t := by
  refine ⟨?_, aligned_zeros _ _ (by omega) ht⟩
  rw [oscString_eq, List.append_assoc, List.cons_append]
  exact cstring_zero s _ h

/-- A string that was read is in the right format. -/
theorem oscString_read (p s r t : List UInt8) (hp : p.length % 4 = 0) (h1 : cstring p = some (s, r)) (h2 : aligned r = some t) :
    p = oscString s ++ t ∧ 0 ∉ s ∧ t.length % 4 = 0 := by
  obtain ⟨e1, h0⟩ := cstring_some p s r h1
  obtain ⟨e2, ht⟩ := aligned_some r t h2
  refine ⟨?_, h0, ht⟩
  rw [e1] at hp
  have hr : r.length % 4 = 3 - s.length % 4 := by
    simp at hp; omega
  rw [hr] at e2
  rw [oscString_eq, e1, List.append_assoc, List.cons_append, ← e2]

/-! ### Arguments -/

theorem padTo4_length (s : List UInt8) : (padTo4 s).length % 4 = 0 := by
  rw [padTo4, List.length_append, List.length_replicate]; omega

theorem bytes_length (a : Argument) : a.bytes.length % 4 = 0 := by
  cases a <;> simp only [Argument.bytes, List.length_append, List.length_nil, toBytes_length, Nat.zero_mod] <;>
    try rfl
  · exact oscString_length _
  · have := padTo4_length ‹List UInt8›; omega

/-- The size of an argument. -/
def size : Argument → Nat
  | .yes => 0
  | .no => 0
  | .int32 _ => 4
  | .int64 _ => 8
  | .float _ => 4
  | .double _ => 8
  | .str s => s.length + 1
  | .blob b => 4 + b.length

theorem ceil4_size (a : Argument) : ceil4 (size a) = a.bytes.length := by
  cases a <;> simp only [size, Argument.bytes, ceil4, List.length_append, List.length_nil, toBytes_length, oscString, padTo4,
    List.length_replicate] <;> omega

theorem drop_size (a : Argument) (t : List UInt8) (ht : t.length % 4 = 0) :
    size a ≤ (a.bytes ++ t).length ∧ ∃ r, aligned ((a.bytes ++ t).drop (size a)) = some r := by
  cases a with
  | yes => exact ⟨by simp [size], t, by simpa [size, Argument.bytes] using aligned_zeros 0 t (by omega) ht⟩
  | no => exact ⟨by simp [size], t, by simpa [size, Argument.bytes] using aligned_zeros 0 t (by omega) ht⟩
  | int32 i =>
    refine ⟨by simp [size, Argument.bytes, toBytes_length], t, ?_⟩
    simp only [size, Argument.bytes]
    rw [List.drop_left' (toBytes_length _ _)]
    exact aligned_zeros 0 t (by omega) ht
  | int64 i =>
    refine ⟨by simp [size, Argument.bytes, toBytes_length], t, ?_⟩
    simp only [size, Argument.bytes]
    rw [List.drop_left' (toBytes_length _ _)]
    exact aligned_zeros 0 t (by omega) ht
  | float i =>
    refine ⟨by simp [size, Argument.bytes, toBytes_length], t, ?_⟩
    simp only [size, Argument.bytes]
    rw [List.drop_left' (toBytes_length _ _)]
    exact aligned_zeros 0 t (by omega) ht
  | double i =>
    refine ⟨by simp [size, Argument.bytes, toBytes_length], t, ?_⟩
    simp only [size, Argument.bytes]
    rw [List.drop_left' (toBytes_length _ _)]
    exact aligned_zeros 0 t (by omega) ht
  | str s =>
    refine ⟨?_, t, ?_⟩
    · simp only [size, Argument.bytes, oscString, List.length_append, List.length_replicate]; omega
    · simp only [size, Argument.bytes]
      rw [oscString_eq, show s ++ 0 :: List.replicate (3 - s.length % 4) 0 ++ t =
        (s ++ [0]) ++ (List.replicate (3 - s.length % 4) 0 ++ t) by simp, List.drop_left' (by simp)]
      exact aligned_zeros _ t (by omega) ht
  | blob b =>
    refine ⟨?_, t, ?_⟩
    · simp only [size, Argument.bytes, padTo4, List.length_append, List.length_replicate, toBytes_length]; omega
    · simp only [size, Argument.bytes, padTo4]
      rw [show toBytes 4 b.length ++ (b ++ List.replicate ((4 - b.length % 4) % 4) 0) ++ t =
        (toBytes 4 b.length ++ b) ++ (List.replicate ((4 - b.length % 4) % 4) 0 ++ t) by simp,
        List.drop_left' (by simp [toBytes_length])]
      exact aligned_zeros _ t (by omega) ht

theorem rawSize_bytes (a : Argument) (ha : a.Ok) (t : List UInt8) (ht : t.length % 4 = 0) :
    rawSize a.tag (a.bytes ++ t) = .ok (size a) := by
  cases a with
  | yes => rfl
  | no => rfl
  | int32 i => rfl
  | int64 i => rfl
  | float n => rfl
  | double n => rfl
  | str s =>
    have := (read_oscString s t ha ht).1
    simp only [rawSize, Argument.tag, Argument.bytes, this]
    rfl
  | blob b =>
    have hlt : b.length < 256 ^ 4 := by simp only [Argument.Ok] at ha; omega
    have hne : Argument.bytes (.blob b) ++ t ≠ [] := by
      intro h
      have := congrArg List.length h
      simp [Argument.bytes, toBytes_length] at this
    have hp : pod 4 (Argument.bytes (.blob b) ++ t) = .ok b.length := by
      rw [Argument.bytes, List.append_assoc]; exact pod_append 4 b.length _ hlt
    simp only [rawSize, Argument.tag, hne, hp, if_false]
    simp only [Argument.Ok] at ha
    have : (4 + b.length) % 2 ^ 32 = 4 + b.length := Nat.mod_eq_of_lt (by omega)
    simp [size]
    omega

theorem getArgSize_bytes (a : Argument) (ha : a.Ok) (t : List UInt8) (ht : t.length % 4 = 0) :
    getArgSize a.tag (a.bytes ++ t) = .ok (size a) := by
  obtain ⟨h1, r, h2⟩ := drop_size a t ht
  rw [getArgSize, rawSize_bytes a ha t ht, Outcome.ok_bind, if_neg (by omega), h2]

/-- An argument that was found stands for an argument that was sent. -/
def IsArg (a : Argument) (x : Arg) : Prop := x.tag = a.tag ∧ ∃ t, x.start = a.bytes ++ t

theorem flatMap_length (as : List Argument) : (as.flatMap Argument.bytes).length % 4 = 0 := by
  induction as with
  | nil => rfl
  | cons a as ih =>
    have := bytes_length a
    rw [List.flatMap_cons, List.length_append]; omega

theorem readArgs_bytes (as : List Argument) (ha : ∀ a ∈ as, a.Ok) :
    ∃ xs, readArgs (as.map Argument.tag) (as.flatMap Argument.bytes) = .ok xs ∧ List.Forall₂ IsArg as xs := by
  induction as with
  | nil => exact ⟨[], rfl, .nil⟩
  | cons a as ih =>
    obtain ⟨xs, he, hx⟩ := ih fun b hb => ha b (by simp [hb])
    refine ⟨⟨a.tag, size a, a.bytes ++ as.flatMap Argument.bytes⟩ :: xs, ?_, .cons ⟨rfl, _, rfl⟩ hx⟩
    simp only [List.map_cons, List.flatMap_cons, readArgs]
    rw [getArgSize_bytes a (ha a (by simp)) _ (flatMap_length as), Outcome.ok_bind, ceil4_size, List.drop_left, he]
    rfl

/-! ### Messages and packets -/

/-- A message that was read stands for a message that was sent. -/
def IsMessage (m : Sent) (x : Message) : Prop := x.address = m.address ∧ List.Forall₂ IsArg m.args x.args

theorem tag_ne_zero (a : Argument) : a.tag ≠ 0 := by
  intro h; cases a <;> simp [Argument.tag] at h

theorem message_bytes (m : Sent) (h : m.Ok) : ∃ x, message m.bytes = .ok x ∧ IsMessage m x := by
  obtain ⟨xs, he, hx⟩ := readArgs_bytes m.args h.args
  have hl2 := flatMap_length m.args
  have hz : (0 : UInt8) ∉ 44 :: m.args.map Argument.tag := by
    simp only [List.mem_cons, List.mem_map, not_or]
    refine ⟨by decide, ?_⟩
    rintro ⟨a, _, ha⟩
    exact tag_ne_zero a ha
  have h2 := read_oscString _ (m.args.flatMap Argument.bytes) hz hl2
  have hl3 : (oscString (44 :: m.args.map Argument.tag) ++ m.args.flatMap Argument.bytes).length % 4 = 0 := by
    have := oscString_length (44 :: m.args.map Argument.tag)
    rw [List.length_append]; omega
  have h1 := read_oscString m.address _ h.nozero hl3
  refine ⟨⟨m.address, xs⟩, ?_, rfl, hx⟩
  simp only [message, Sent.bytes, h1.1, h1.2, h2.1, h2.2, h.slash, he]
  rfl

theorem sent_length (m : Sent) : m.bytes.length % 4 = 0 := by
  have h1 := oscString_length m.address
  have h2 := oscString_length (44 :: m.args.map Argument.tag)
  have h3 := flatMap_length m.args
  rw [Sent.bytes, List.length_append, List.length_append]; omega

theorem wire_length (p : Part) (s : List UInt8) (ms : List Sent) (h : Wire p s ms) : s.length % 4 = 0 := by
  induction h with
  | empty => rfl
  | message m _ => exact sent_length m
  | bundle time es ms ht _ ih => simp [bundleTag, ht]; omega
  | last s ms _ _ ih => rw [List.length_append, toBytes_length]; omega
  | cons s ms es ms' _ _ _ ih ih' => rw [List.length_append, List.length_append, toBytes_length]; omega

theorem wire_elements_ne (es : List UInt8) (ms : List Sent) (h : Wire .elements es ms) : 4 ≤ es.length := by
  cases h with
  | last s _ _ _ => rw [List.length_append, toBytes_length]; omega
  | cons s _ es _ _ _ _ => rw [List.length_append, List.length_append, toBytes_length]; omega

theorem toBytes4 (n : Nat) : ∃ a b c d, toBytes 4 n = [a, b, c, d] := ⟨_, _, _, _, rfl⟩

theorem parse_wire (p : Part) (s : List UInt8) (ms : List Sent) (h : Wire p s ms) :
    ∃ xs, (match p with | .packet => parse s | .elements => elements s) = .ok xs ∧ List.Forall₂ IsMessage ms xs := by
  induction h with
  | empty => exact ⟨[], by simp [parse], .nil⟩
  | message m hm =>
    obtain ⟨x, he, hx⟩ := message_bytes m hm
    refine ⟨[x], ?_, .cons hx .nil⟩
    obtain ⟨c, r, hc⟩ := List.exists_cons_of_ne_nil (l := m.address) (by rintro h0; have := hm.slash; rw [h0] at this; cases this)
    have h47 : c = 47 := by have := hm.slash; rw [hc] at this; simpa using this
    have hb : ∃ r', m.bytes = 47 :: r' := by
      rw [Sent.bytes, oscString, hc, h47]; exact ⟨_, rfl⟩
    obtain ⟨r', hb⟩ := hb
    simp only []
    rw [parse, if_neg (by rw [hb]; simp), if_neg (by rw [hb]; simp), he]
    rfl
  | bundle time es ms ht hes ih =>
    obtain ⟨xs, he, hx⟩ := ih
    refine ⟨xs, ?_, hx⟩
    have h4 := wire_elements_ne es ms hes
    simp only [] at he ⊢
    have htag : (bundleTag ++ time ++ es).take 8 = bundleTag := by
      rw [List.append_assoc]; exact List.take_left' rfl
    have hdrop : (bundleTag ++ time ++ es).drop 16 = es := List.drop_left' (by simp [bundleTag, ht])
    rw [parse, if_neg (by simp [bundleTag]), if_pos (by simp [bundleTag]), if_pos, hdrop, he]
    refine ⟨?_, htag⟩
    simp [bundleTag, ht]; omega
  | last s ms hs hlt ih =>
    obtain ⟨xs, he, hx⟩ := ih
    refine ⟨xs, ?_, hx⟩
    have h4 := wire_length _ s ms hs
    simp only [] at he ⊢
    have hn := number_toBytes 4 s.length
    obtain ⟨a, b, c, d, hb⟩ := toBytes4 s.length
    rw [hb] at hn ⊢
    rw [Nat.mod_eq_of_lt (by omega)] at hn
    simp only [List.cons_append, List.nil_append]
    rw [elements]
    simp only [hn]
    rw [if_neg (by omega), List.take_length, he]
    simp
  | cons s ms es ms' hs hlt hes ih ih' =>
    obtain ⟨xs, he, hx⟩ := ih
    obtain ⟨ys, hey, hy⟩ := ih'
    refine ⟨xs ++ ys, ?_, List.rel_append hx hy⟩
    have h4 := wire_length _ s ms hs
    have h5 := wire_elements_ne es ms' hes
    simp only [] at he hey ⊢
    have hn := number_toBytes 4 s.length
    obtain ⟨a, b, c, d, hb⟩ := toBytes4 s.length
    rw [hb] at hn ⊢
    rw [Nat.mod_eq_of_lt (by omega)] at hn
    simp only [List.cons_append, List.nil_append]
    rw [elements]
    simp only [hn]
    rw [if_neg (by simp; omega), List.take_left, he, Outcome.ok_bind, List.drop_left, if_neg, hey]
    · rfl
    · rintro rfl; simp at h5

theorem packet_wire (s : List UInt8) (ms : List Sent) (h : Wire .packet s ms) :
    ∃ xs, messages s = .ok xs ∧ List.Forall₂ IsMessage ms xs := by
  obtain ⟨xs, he, hx⟩ := parse_wire .packet s ms h
  refine ⟨xs, ?_, hx⟩
  have := wire_length _ s ms h
  simp only [] at he
  simp [messages, packet, this, he]

/-! ### No read outside the packet -/

theorem rawSize_safe (tag : UInt8) (p : List UInt8) (hp : p.length % 4 = 0) : rawSize tag p ≠ .ub := by
  unfold rawSize
  split
  · simp
  split
  · simp
  split
  · simp
  split
  · split <;> simp
  split
  · split
    · simp
    · rename_i hne
      have : ¬ p.length < 4 := by
        have : p.length ≠ 0 := by simpa using hne
        omega
      simp [pod, this]
  · simp

theorem getArgSize_safe (tag : UInt8) (p : List UInt8) (hp : p.length % 4 = 0) : getArgSize tag p ≠ .ub := by
  unfold getArgSize
  have := rawSize_safe tag p hp
  cases h : rawSize tag p with
  | ok n =>
    rw [Outcome.ok_bind]
    split
    · simp
    · split <;> simp
  | throw e => simp
  | ub => exact absurd h this

theorem getArgSize_ok (tag : UInt8) (p : List UInt8) (n : Nat) (h : getArgSize tag p = .ok n) :
    rawSize tag p = .ok n ∧ n ≤ p.length ∧ ∃ r, aligned (p.drop n) = some r := by
  unfold getArgSize at h
  cases hr : rawSize tag p with
  | ok m =>
    rw [hr, Outcome.ok_bind] at h
    split at h
    · simp at h
    · split at h
      · simp at h
      · rename_i h1 r h2
        injection h with h
        subst h
        exact ⟨rfl, by omega, r, h2⟩
  | throw e => simp [hr] at h
  | ub => simp [hr] at h

theorem ceil4_mod (n : Nat) : ceil4 n % 4 = 0 := by unfold ceil4; omega

theorem readArgs_safe (ts p : List UInt8) (hp : p.length % 4 = 0) : readArgs ts p ≠ .ub := by
  induction ts generalizing p with
  | nil => unfold readArgs; split <;> simp
  | cons t ts ih =>
    unfold readArgs
    have h1 := getArgSize_safe t p hp
    cases h : getArgSize t p with
    | ok n =>
      rw [Outcome.ok_bind]
      have h2 := ih (p.drop (ceil4 n)) (by rw [List.length_drop]; have := ceil4_mod n; omega)
      cases h3 : readArgs ts (p.drop (ceil4 n)) with
      | ok r => simp
      | throw e => simp
      | ub => exact absurd h3 h2
    | throw e => simp
    | ub => exact absurd h h1

/-- Arguments of types of fixed size have that many bytes. -/
def Long (a : Arg) : Prop :=
  ((a.tag = 105 ∨ a.tag = 102) → 4 ≤ a.start.length) ∧ (a.tag = 100 → 8 ≤ a.start.length)

theorem readArgs_long (ts p : List UInt8) (xs : List Arg) (h : readArgs ts p = .ok xs) : ∀ x ∈ xs, Long x := by
  induction ts generalizing p xs with
  | nil =>
    unfold readArgs at h
    split at h
    · injection h with h; subst h; simp
    · simp at h
  | cons t ts ih =>
    unfold readArgs at h
    cases h1 : getArgSize t p with
    | ok n =>
      rw [h1, Outcome.ok_bind] at h
      cases h2 : readArgs ts (p.drop (ceil4 n)) with
      | ok r =>
        rw [h2, Outcome.ok_bind] at h
        injection h with h
        subst h
        intro x hx
        rcases List.mem_cons.1 hx with rfl | hx
        · obtain ⟨h3, h4, _⟩ := getArgSize_ok t p n h1
          refine ⟨?_, ?_⟩
          · rintro (rfl | rfl) <;> simp [rawSize] at h3 <;> simp only [] <;> omega
          · rintro rfl
            simp [rawSize] at h3; simp only []; omega
        · exact ih _ _ h2 x hx
      | throw e => simp [h2] at h
      | ub => simp [h2] at h
    | throw e => simp [h1] at h
    | ub => simp [h1] at h

/-- What is read of a message. -/
theorem message_ok (s : List UInt8) (hs : s.length % 4 = 0) (m : Message) (h : message s = .ok m) :
    ∃ tags r, s = oscString m.address ++ (oscString (44 :: tags) ++ r) ∧ r.length % 4 = 0 ∧ m.address.head? = some 47 ∧
      0 ∉ m.address ∧ 0 ∉ tags ∧ readArgs tags r = .ok m.args := by
  unfold message at h
  split at h
  · simp at h
  rename_i a r1 h1
  split at h
  · simp at h
  rename_i r2 h2
  split at h
  · simp at h
  rename_i h3
  split at h
  · simp at h
  rename_i tags r3 h4
  split at h
  · simp at h
  rename_i r4 h5
  split at h
  · simp at h
  rename_i _ c tags
  split at h
  · simp at h
  rename_i hc
  cases h6 : readArgs tags r4 with
  | ok xs =>
    rw [h6, Outcome.ok_bind] at h
    injection h with h
    subst h
    obtain ⟨e1, z1, l1⟩ := oscString_read s a r1 r2 hs h1 h2
    obtain ⟨e2, z2, l2⟩ := oscString_read r2 _ r3 r4 l1 h4 h5
    have hc : c = 44 := by simpa using hc
    subst hc
    exact ⟨tags, r4, by rw [e1, e2], l2, by simpa using h3, z1, fun h0 => z2 (List.mem_cons_of_mem _ h0), h6⟩
  | throw e => simp [h6] at h
  | ub => simp [h6] at h

theorem message_safe (s : List UInt8) (hs : s.length % 4 = 0) : message s ≠ .ub := by
  unfold message
  split
  · simp
  rename_i a r1 h1
  split
  · simp
  rename_i r2 h2
  split
  · simp
  split
  · simp
  rename_i tags r3 h4
  split
  · simp
  rename_i r4 h5
  split
  · simp
  split
  · simp
  rename_i tags _
  have h6 := readArgs_safe tags r4 (aligned_some _ _ h5).2
  cases h7 : readArgs tags r4 with
  | ok xs => simp
  | throw e => simp
  | ub => exact absurd h7 h6

/-- The functions of the reader never read outside the packet and find arguments that are completely inside. -/
theorem parse_safe (n : Nat) : ∀ s : List UInt8, s.length ≤ n → s.length % 4 = 0 →
    (parse s ≠ .ub ∧ ∀ xs, parse s = .ok xs → ∀ m ∈ xs, ∀ a ∈ m.args, Long a) ∧
    (s ≠ [] → elements s ≠ .ub ∧ ∀ xs, elements s = .ok xs → ∀ m ∈ xs, ∀ a ∈ m.args, Long a) := by
  induction n with
  | zero =>
    intro s hn _
    have : s = [] := List.length_eq_zero_iff.1 (by omega)
    subst this
    refine ⟨⟨by simp [parse], ?_⟩, by simp⟩
    intro xs h; simp [parse] at h; subst h; simp
  | succ n ih =>
    intro s hn hs
    refine ⟨?_, ?_⟩
    · rw [parse]
      split
      · refine ⟨by simp, ?_⟩
        intro xs h; injection h with h; subst h; simp
      split
      · split
        · rename_i hb
          refine (ih (s.drop 16) (by rw [List.length_drop]; omega) (by rw [List.length_drop]; omega)).2 ?_
          intro h0
          have := congrArg List.length h0
          simp at this; omega
        · exact ⟨by simp, by simp⟩
      · have h1 := message_safe s hs
        cases h2 : message s with
        | ok m =>
          refine ⟨by simp, ?_⟩
          intro xs h
          simp only [Outcome.ok_bind, Outcome.ok.injEq] at h
          subst h
          intro m' hm'
          obtain ⟨tags, r, _, _, _, _, _, hr⟩ := message_ok s hs m h2
          have : m' = m := by simpa using hm'
          subst this
          exact readArgs_long _ _ _ hr
        | throw e => exact ⟨by simp, by simp⟩
        | ub => exact absurd h2 h1
    · intro hne
      have h4 : 4 ≤ s.length := by
        have : s.length ≠ 0 := by simpa using hne
        omega
      match s, h4 with
      | b0 :: b1 :: b2 :: b3 :: r, _ =>
        simp only [List.length_cons] at hn hs
        rw [elements]
        generalize number [b0, b1, b2, b3] = sz
        split
        · exact ⟨by simp, by simp⟩
        · rename_i hsz
          have hsz : sz % 4 = 0 ∧ sz ≤ r.length := by
            constructor
            · by_contra h; exact hsz (.inl h)
            · by_contra h; exact hsz (.inr (by omega))
          have hp := (ih (r.take sz) (by rw [List.length_take]; omega) (by rw [List.length_take]; omega)).1
          have he := (ih (r.drop sz) (by rw [List.length_drop]; omega) (by rw [List.length_drop]; omega)).2
          cases h1 : parse (r.take sz) with
          | ok ms =>
            rw [Outcome.ok_bind]
            split
            · refine ⟨by simp, ?_⟩
              intro xs h; injection h with h; subst h; exact hp.2 _ h1
            · rename_i hd
              have he := he hd
              cases h2 : elements (r.drop sz) with
              | ok ms' =>
                refine ⟨by simp, ?_⟩
                intro xs h
                simp only [Outcome.ok_bind, Outcome.ok.injEq] at h
                subst h
                intro m hm
                rcases List.mem_append.1 hm with hm | hm
                · exact hp.2 _ h1 m hm
                · exact he.2 _ h2 m hm
              | throw e => exact ⟨by simp, by simp⟩
              | ub => exact absurd h2 he.1
          | throw e => exact ⟨by simp, by simp⟩
          | ub => exact absurd h1 hp.1

theorem messages_safe (s : List UInt8) : ∃ xs, messages s = .ok xs ∧ ∀ m ∈ xs, ∀ a ∈ m.args, Long a := by
  unfold messages packet
  by_cases hs : s.length % 4 = 0
  · rw [if_pos hs]
    have h := (parse_safe s.length s le_rfl hs).1
    cases h1 : parse s with
    | ok xs => exact ⟨xs, rfl, h.2 _ h1⟩
    | throw e => exact ⟨[], rfl, by simp⟩
    | ub => exact absurd h1 h.1
  · rw [if_neg hs]; exact ⟨[], rfl, by simp⟩

theorem popPod_safe (tag : UInt8) (n : Nat) (m : Message) (h : ∀ a ∈ m.args, a.tag = tag → n ≤ a.start.length) :
    ∃ v, popPod tag n m = .ok v := by
  unfold popPod
  split
  · exact ⟨0, rfl⟩
  · rename_i a as ha
    split
    · rename_i ht
      have := h a (by rw [ha]; simp) ht
      rw [pod, if_neg (by omega)]; exact ⟨_, rfl⟩
    · exact ⟨0, rfl⟩

theorem value_safe (k : Kind) (m : Message) (h : ∀ a ∈ m.args, Long a) : ∃ v, value k m = .ok v := by
  have hi := popPod_safe 105 4 m fun a ha ht => (h a ha).1 (.inl ht)
  have hf := popPod_safe 102 4 m fun a ha ht => (h a ha).1 (.inr ht)
  have hd := popPod_safe 100 8 m fun a ha ht => (h a ha).2 ht
  obtain ⟨i, hi⟩ := hi
  obtain ⟨f, hf⟩ := hf
  obtain ⟨d, hd⟩ := hd
  cases k with
  | bool => unfold value popBool; simp only []; split <;> exact ⟨_, rfl⟩
  | int => exact ⟨_, by simp [value, popInt32, hi]; rfl⟩
  | uint =>
    simp only [value, popInt32, hi, Outcome.ok_bind]
    split <;> exact ⟨_, rfl⟩
  | float => exact ⟨_, by simp [value, popFloat, hf]; rfl⟩
  | double => exact ⟨_, by simp [value, popDouble, hd]; rfl⟩

theorem values_safe (k : Kind) (ms : List Message) (h : ∀ m ∈ ms, ∀ a ∈ m.args, Long a) : ∃ vs, values k ms = .ok vs := by
  induction ms with
  | nil => exact ⟨[], rfl⟩
  | cons m ms ih =>
    obtain ⟨v, hv⟩ := value_safe k m (h m (by simp))
    obtain ⟨vs, hvs⟩ := ih fun m hm => h m (by simp [hm])
    cases v with
    | none => exact ⟨[], by simp [values, hv]⟩
    | some v => exact ⟨v :: vs, by simp [values, hv, hvs]⟩

/-! ### Values -/

theorem signed32_mod (i : Int) (h : -2 ^ 31 ≤ i ∧ i < 2 ^ 31) : signed32 (i % 2 ^ 32).toNat = i := by
  unfold signed32; split <;> omega

theorem popPod_other (tag : UInt8) (n : Nat) (m : Message) (a : Arg) (as : List Arg) (h : m.args = a :: as) (ht : a.tag ≠ tag) :
    popPod tag n m = .ok 0 := by
  simp [popPod, h, ht]

theorem popPod_value (tag : UInt8) (n v : Nat) (m : Message) (a : Arg) (as : List Arg) (t : List UInt8) (h : m.args = a :: as)
    (ht : a.tag = tag) (hs : a.start = toBytes n v ++ t) (hv : v < 256 ^ n) : popPod tag n m = .ok v := by
  simp [popPod, h, ht, hs, pod_append n v t hv]

/-- The value of a message as it is delivered. -/
def given (k : Kind) (m : Sent) : Option Value :=
  match k, m.args with
  | .uint, .int32 i :: _ => if 0 ≤ i then some (.uint i.toNat) else none
  | k, _ => some ((m.value k).getD (zero k))

theorem value_given (k : Kind) (m : Sent) (x : Message) (hm : m.Ok) (h : IsMessage m x) : value k x = .ok (given k m) := by
  obtain ⟨_, ha⟩ := h
  obtain ⟨address, args⟩ := m
  obtain ⟨xa, xargs⟩ := x
  simp only [] at ha
  cases ha with
  | nil => cases k <;> rfl
  | @cons a x as xs hax _ =>
    obtain ⟨ht, t, hs⟩ := hax
    have hok : a.Ok := hm.args a (by simp)
    obtain ⟨xtag, xsize, xstart⟩ := x
    simp only [] at ht hs
    subst ht hs
    cases a with
    | int32 i =>
      have h2 : popPod 105 4 ⟨xa, ⟨105, xsize, toBytes 4 (i % 2 ^ 32).toNat ++ t⟩ :: xs⟩ = .ok (i % 2 ^ 32).toNat :=
        popPod_value 105 4 _ _ _ _ t rfl rfl rfl (by omega)
      have h3 := signed32_mod i hok
      cases k with
      | int =>
        simp only [value, popInt32, Argument.tag, Argument.bytes, given, Sent.value]
        rw [h2, Outcome.ok_bind, h3]; rfl
      | uint =>
        simp only [value, popInt32, Argument.tag, Argument.bytes, given, Sent.value]
        rw [h2, Outcome.ok_bind, h3, Outcome.ok_bind]
        by_cases hi : 0 ≤ i
        · rw [if_neg (by omega), if_pos hi]
        · rw [if_pos (by omega), if_neg hi]
      | _ => rfl
    | float n =>
      have h2 : popPod 102 4 ⟨xa, ⟨102, xsize, toBytes 4 n ++ t⟩ :: xs⟩ = .ok n :=
        popPod_value 102 4 _ _ _ _ t rfl rfl rfl (by simp only [Argument.Ok] at hok; omega)
      cases k with
      | float =>
        simp only [value, popFloat, Argument.tag, Argument.bytes, given, Sent.value]
        rw [h2, Outcome.ok_bind]; rfl
      | _ => rfl
    | double n =>
      have h2 : popPod 100 8 ⟨xa, ⟨100, xsize, toBytes 8 n ++ t⟩ :: xs⟩ = .ok n :=
        popPod_value 100 8 _ _ _ _ t rfl rfl rfl (by simp only [Argument.Ok] at hok; omega)
      cases k with
      | double =>
        simp only [value, popDouble, Argument.tag, Argument.bytes, given, Sent.value]
        rw [h2, Outcome.ok_bind]; rfl
      | _ => rfl
    | _ => cases k <;> rfl

theorem values_given (k : Kind) (ms : List Sent) (xs : List Message) (hm : ∀ m ∈ ms, m.Ok) (h : List.Forall₂ IsMessage ms xs) :
    values k xs = .ok ((ms.map (given k)).takeWhile Option.isSome).reduceOption := by
  induction h with
  | nil => rfl
  | @cons m x ms xs h1 _ ih =>
    rw [values, value_given k m x (hm m (by simp)) h1, Outcome.ok_bind]
    cases hg : given k m with
    | none => simp [hg]
    | some v => simp [ih fun m hm' => hm m (by simp [hm']), hg]

theorem wire_ok (p : Part) (s : List UInt8) (ms : List Sent) (h : Wire p s ms) : ∀ m ∈ ms, m.Ok := by
  induction h with
  | empty => simp
  | message m hm => simpa using hm
  | bundle _ _ _ _ _ ih => exact ih
  | last _ _ _ _ ih => exact ih
  | cons _ _ _ _ _ _ _ ih ih' =>
    intro m hm
    rcases List.mem_append.1 hm with hm | hm
    · exact ih m hm
    · exact ih' m hm

/-! ### Only packets of the right format are accepted -/

/-- The size that a blob declares does not overflow. -/
def NoOverflow (a : Arg) : Prop := a.tag = 98 → number (a.start.take 4) < 2 ^ 32 - 4

theorem toBytes_take (w : Nat) (p : List UInt8) (h : w ≤ p.length) : p = toBytes w (number (p.take w)) ++ p.drop w := by
  have hl : (p.take w).length = w := by rw [List.length_take]; omega
  have := toBytes_number (p.take w)
  rw [hl] at this
  rw [this, List.take_append_drop]

theorem signed32_inv (n : Nat) (h : n < 2 ^ 32) : (signed32 n % 2 ^ 32).toNat = n ∧ -2 ^ 31 ≤ signed32 n ∧ signed32 n < 2 ^ 31 := by
  unfold signed32; split <;> omega

theorem arg_sound (t : UInt8) (p : List UInt8) (n : Nat) (hp : p.length % 4 = 0) (h : getArgSize t p = .ok n)
    (ho : NoOverflow ⟨t, n, p⟩) : ∃ a : Argument, a.Ok ∧ a.tag = t ∧ p = a.bytes ++ p.drop (ceil4 n) := by
  obtain ⟨h1, h2, r, h3⟩ := getArgSize_ok t p n h
  unfold rawSize at h1
  split at h1
  · rename_i ht
    injection h1 with h1; subst h1
    rcases ht with rfl | rfl
    · exact ⟨.yes, trivial, rfl, rfl⟩
    · exact ⟨.no, trivial, rfl, rfl⟩
  split at h1
  · rename_i ht
    injection h1 with h1; subst h1
    have e := toBytes_take 4 p h2
    have hlt := number_lt (p.take 4)
    rw [show (p.take 4).length = 4 by rw [List.length_take]; omega] at hlt
    rcases ht with rfl | rfl
    · obtain ⟨s1, s2⟩ := signed32_inv (number (p.take 4)) (by omega)
      refine ⟨.int32 (signed32 (number (p.take 4))), s2, rfl, ?_⟩
      rw [Argument.bytes, s1]; exact e
    · exact ⟨.float (number (p.take 4)), by simp only [Argument.Ok]; omega, rfl, e⟩
  split at h1
  · rename_i ht
    injection h1 with h1; subst h1
    have e := toBytes_take 8 p h2
    have hlt := number_lt (p.take 8)
    rw [show (p.take 8).length = 8 by rw [List.length_take]; omega] at hlt
    rcases ht with rfl | rfl
    · refine ⟨.int64 (if number (p.take 8) < 2 ^ 63 then (number (p.take 8) : Int) else (number (p.take 8) : Int) - 2 ^ 64), ?_, rfl, ?_⟩
      · simp only [Argument.Ok]; split <;> omega
      · have : ((if number (p.take 8) < 2 ^ 63 then (number (p.take 8) : Int) else (number (p.take 8) : Int) - 2 ^ 64) % 2 ^ 64).toNat =
            number (p.take 8) := by split <;> omega
        rw [Argument.bytes, this]; exact e
    · exact ⟨.double (number (p.take 8)), by simp only [Argument.Ok]; omega, rfl, e⟩
  split at h1
  · rename_i ht
    subst ht
    split at h1
    · simp at h1
    · rename_i s r' hc
      injection h1 with h1; subst h1
      obtain ⟨e1, h0⟩ := cstring_some p s r' hc
      have hd : p.drop (s.length + 1) = r' := by
        rw [e1, show s ++ 0 :: r' = (s ++ [0]) ++ r' by simp]
        exact List.drop_left' (by simp)
      rw [hd] at h3
      obtain ⟨e, _, _⟩ := oscString_read p s r' r hp hc h3
      refine ⟨.str s, h0, rfl, ?_⟩
      have := ceil4_size (.str s)
      simp only [size] at this
      rw [this]
      conv_lhs => rw [e]
      rw [Argument.bytes]
      conv_rhs => rw [e, List.drop_left]
  split at h1
  · rename_i ht
    subst ht
    split at h1
    · simp at h1
    · rename_i hne
      have hl : 4 ≤ p.length := by
        have : p.length ≠ 0 := by simpa using hne
        omega
      have ho := ho rfl
      simp only [] at ho
      rw [pod, if_neg (by omega), Outcome.ok_bind] at h1
      injection h1 with h1
      rw [Nat.mod_eq_of_lt (by omega)] at h1
      have e := toBytes_take 4 p hl
      generalize number (p.take 4) = k at ho h1 e
      subst h1
      obtain ⟨e2, _⟩ := aligned_some _ _ h3
      have hb : ((p.drop 4).take k).length = k := by rw [List.length_take, List.length_drop]; omega
      refine ⟨.blob ((p.drop 4).take k), by simp only [Argument.Ok, hb]; omega, rfl, ?_⟩
      have hsz := ceil4_size (.blob ((p.drop 4).take k))
      simp only [size, hb] at hsz
      have hbytes : p = Argument.bytes (.blob ((p.drop 4).take k)) ++ r := by
        simp only [Argument.bytes, padTo4, hb]
        have h6 : (p.drop (4 + k)).length % 4 = (4 - k % 4) % 4 := by rw [List.length_drop]; omega
        rw [h6] at e2
        rw [List.append_assoc, List.append_assoc, ← e2, ← List.drop_drop, List.take_append_drop]
        exact e
      rw [hsz]
      conv_lhs => rw [hbytes]
      congr 1
      have h7 : (p.drop (Argument.bytes (.blob ((p.drop 4).take k))).length) = r := by
        have h8 := congrArg (List.drop (Argument.bytes (.blob ((p.drop 4).take k))).length) hbytes
        rwa [List.drop_left] at h8
      exact h7.symm
  · simp at h1

theorem readArgs_sound (ts p : List UInt8) (xs : List Arg) (hp : p.length % 4 = 0) (h : readArgs ts p = .ok xs)
    (ho : ∀ x ∈ xs, NoOverflow x) : ∃ as : List Argument, (∀ a ∈ as, a.Ok) ∧ as.map Argument.tag = ts ∧ p = as.flatMap Argument.bytes := by
  induction ts generalizing p xs with
  | nil =>
    unfold readArgs at h
    split at h
    · rename_i h0; exact ⟨[], by simp, rfl, h0⟩
    · simp at h
  | cons t ts ih =>
    unfold readArgs at h
    cases h1 : getArgSize t p with
    | ok n =>
      rw [h1, Outcome.ok_bind] at h
      cases h2 : readArgs ts (p.drop (ceil4 n)) with
      | ok r =>
        rw [h2, Outcome.ok_bind] at h
        injection h with h
        subst h
        obtain ⟨a, a1, a2, a3⟩ := arg_sound t p n hp h1 (ho _ (by simp))
        obtain ⟨as, b1, b2, b3⟩ := ih (p.drop (ceil4 n)) r (by rw [List.length_drop]; have := ceil4_mod n; omega) h2
          fun x hx => ho x (by simp [hx])
        refine ⟨a :: as, ?_, by simp [a2, b2], ?_⟩
        · intro x hx
          rcases List.mem_cons.1 hx with rfl | hx
          · exact a1
          · exact b1 x hx
        · rw [List.flatMap_cons, ← b3]; exact a3
      | throw e => simp [h2] at h
      | ub => simp [h2] at h
    | throw e => simp [h1] at h
    | ub => simp [h1] at h

theorem message_sound (s : List UInt8) (hs : s.length % 4 = 0) (m : Message) (h : message s = .ok m)
    (ho : ∀ x ∈ m.args, NoOverflow x) : ∃ sm : Sent, sm.Ok ∧ s = sm.bytes := by
  obtain ⟨tags, r, e, hr, h1, h2, _, h4⟩ := message_ok s hs m h
  obtain ⟨as, b1, b2, b3⟩ := readArgs_sound tags r m.args hr h4 ho
  exact ⟨⟨m.address, as⟩, ⟨h1, h2, b1⟩, by rw [Sent.bytes, e, b2, ← b3]⟩

theorem parse_sound (n : Nat) : ∀ s : List UInt8, s.length ≤ n → s.length % 4 = 0 →
    (∀ xs, parse s = .ok xs → (∀ m ∈ xs, ∀ a ∈ m.args, NoOverflow a) → ∃ ms, Wire .packet s ms) ∧
    (∀ xs, s ≠ [] → elements s = .ok xs → (∀ m ∈ xs, ∀ a ∈ m.args, NoOverflow a) → ∃ ms, Wire .elements s ms) := by
  induction n with
  | zero =>
    intro s hn _
    have : s = [] := List.length_eq_zero_iff.1 (by omega)
    subst this
    exact ⟨fun _ _ _ => ⟨[], .empty⟩, by simp⟩
  | succ n ih =>
    intro s hn hs
    refine ⟨?_, ?_⟩
    · intro xs h ho
      rw [parse] at h
      split at h
      · rename_i h0; subst h0; exact ⟨[], .empty⟩
      split at h
      · split at h
        · rename_i hb
          obtain ⟨ms, hw⟩ := (ih (s.drop 16) (by rw [List.length_drop]; omega) (by rw [List.length_drop]; omega)).2 xs
            (by intro h0; have := congrArg List.length h0; simp at this; omega) h ho
          have e : s = bundleTag ++ (s.drop 8).take 8 ++ s.drop 16 := by
            rw [← hb.2, List.append_assoc, show s.drop 16 = (s.drop 8).drop 8 by rw [List.drop_drop], List.take_append_drop,
              List.take_append_drop]
          refine ⟨ms, ?_⟩
          rw [e]
          exact .bundle _ _ _ (by rw [List.length_take, List.length_drop]; omega) hw
        · simp at h
      · cases h2 : message s with
        | ok m =>
          rw [h2] at h
          simp only [Outcome.ok_bind, Outcome.ok.injEq] at h
          subst h
          obtain ⟨sm, hok, e⟩ := message_sound s hs m h2 (ho m (by simp))
          exact ⟨[sm], e ▸ .message sm hok⟩
        | throw e => simp [h2] at h
        | ub => simp [h2] at h
    · intro xs hne h ho
      have h4 : 4 ≤ s.length := by
        have : s.length ≠ 0 := by simpa using hne
        omega
      match s, h4 with
      | b0 :: b1 :: b2 :: b3 :: r, _ =>
        simp only [List.length_cons] at hn hs
        rw [elements] at h
        have hb : [b0, b1, b2, b3] = toBytes 4 (number [b0, b1, b2, b3]) := (toBytes_number [b0, b1, b2, b3]).symm
        have hlt := number_lt [b0, b1, b2, b3]
        rw [show b0 :: b1 :: b2 :: b3 :: r = [b0, b1, b2, b3] ++ r by rfl, hb]
        generalize number [b0, b1, b2, b3] = sz at *
        simp only [List.length_cons, List.length_nil] at hlt
        split at h
        · simp at h
        · rename_i hsz
          have hsz : sz % 4 = 0 ∧ sz ≤ r.length := by
            constructor
            · by_contra h; exact hsz (.inl h)
            · by_contra h; exact hsz (.inr (by omega))
          have hl : (r.take sz).length = sz := by rw [List.length_take]; omega
          have hp := (ih (r.take sz) (by omega) (by omega)).1
          have he := (ih (r.drop sz) (by rw [List.length_drop]; omega) (by rw [List.length_drop]; omega)).2
          cases h1 : parse (r.take sz) with
          | ok ms =>
            rw [h1, Outcome.ok_bind] at h
            split at h
            · rename_i hd
              injection h with h; subst h
              obtain ⟨sm, hw⟩ := hp _ h1 ho
              refine ⟨sm, ?_⟩
              have e : r = r.take sz := by
                conv_lhs => rw [← List.take_append_drop sz r, hd, List.append_nil]
              rw [← e] at hw hl
              rw [← hl]
              exact .last r sm hw (by omega)
            · rename_i hd
              cases h2 : elements (r.drop sz) with
              | ok ms' =>
                rw [h2] at h
                simp only [Outcome.ok_bind, Outcome.ok.injEq] at h
                subst h
                obtain ⟨sm, hw⟩ := hp _ h1 fun m hm => ho m (by simp [hm])
                obtain ⟨sm', hw'⟩ := he _ hd h2 fun m hm => ho m (by simp [hm])
                refine ⟨sm ++ sm', ?_⟩
                have := Wire.cons (r.take sz) sm (r.drop sz) sm' hw (by omega) hw'
                rwa [hl, List.append_assoc, List.take_append_drop] at this
              | throw e => simp [h2] at h
              | ub => simp [h2] at h
          | throw e => simp [h1] at h
          | ub => simp [h1] at h

end Visr.Osc
