import Verif.Osc.Lemmas

/-!
# OSC packets and the values they contain (C80)
-/

namespace Visr.Osc

/-- Every value of a message that was sent is either delivered or zero is delivered in its place. -/
theorem given_eq (k : Kind) (m : Sent) :
    given k m = if m.negative k then none else some ((m.value k).getD (zero k)) := by
  obtain ⟨address, args⟩ := m
  cases k with
  | uint =>
    cases args with
    | nil => rfl
    | cons a as =>
      cases a with
      | int32 i =>
        simp only [given, Sent.negative, Sent.value]
        by_cases h : 0 ≤ i
        · have h' : ¬ i < 0 := by omega
          simp [h, h']
        · have h' : i < 0 := by omega
          simp [h, h']
      | _ => rfl
  | _ => rfl

/-- **C80**: what a datagram delivers. For every packet of OSC messages, plain or as nested bundles: the values of the
messages in the order in which they were sent, up to the first message with a negative number for an unsigned value; zero for
messages whose first argument is missing or has another type. -/
theorem decoded (k : Kind) (s : List UInt8) (ms : List Sent) (h : Wire .packet s ms) :
    decode k s = .ok ((ms.takeWhile fun m => !m.negative k).map fun m => (m.value k).getD (zero k)) := by
  obtain ⟨xs, he, hx⟩ := packet_wire s ms h
  rw [decode, he, Outcome.ok_bind, values_given k ms xs (wire_ok _ s ms h) hx]
  congr 1
  clear he hx h
  induction ms with
  | nil => rfl
  | cons m ms ih =>
    rw [List.map_cons, given_eq]
    cases hn : m.negative k with
    | true => simp [hn]
    | false => simp [hn, ih]

/-- **C80** (partial: only if every message has a value of the type of the decoder; otherwise see `wrong_type_is_zero` and
`negative_drops_the_rest`): exactly the values of the messages are delivered, in the order in which they were sent. -/
theorem decoded_partial (k : Kind) (s : List UInt8) (ms : List Sent) (h : Wire .packet s ms)
    (hv : ∀ m ∈ ms, (m.value k).isSome) : ∃ vs, decode k s = .ok vs ∧ List.Forall₂ (fun m v => m.value k = some v) ms vs := by
  refine ⟨_, decoded k s ms h, ?_⟩
  clear h
  induction ms with
  | nil => exact .nil
  | cons m ms ih =>
    obtain ⟨v, hm⟩ := Option.isSome_iff_exists.1 (hv m (by simp))
    have hn : m.negative k = false := by
      obtain ⟨address, args⟩ := m
      cases k with
      | uint =>
        cases args with
        | nil => rfl
        | cons a as =>
          cases a with
          | int32 i =>
            simp only [Sent.value] at hm
            split at hm
            · rename_i hi; simp [Sent.negative]; omega
            · cases hm
          | _ => rfl
      | _ => rfl
    rw [List.takeWhile_cons, hn]
    simp only [Bool.not_false, if_true, List.map_cons, hm, Option.getD_some]
    exact .cons hm (ih fun m hm => hv m (by simp [hm]))

/-- The format is unambiguous as far as values are concerned. -/
theorem wire_value_unique (k : Kind) (s : List UInt8) (m m' : Sent) (h : Wire .packet s [m]) (h' : Wire .packet s [m'])
    (v v' : Value) (hv : m.value k = some v) (hv' : m'.value k = some v') : v = v' := by
  obtain ⟨vs, h1, h2⟩ := decoded_partial k s [m] h (by simp [hv])
  obtain ⟨vs', h1', h2'⟩ := decoded_partial k s [m'] h' (by simp [hv'])
  rw [h1] at h1'
  injection h1' with e
  subst e
  cases h2 with
  | cons a b =>
    cases h2' with
    | cons a' b' => rw [hv] at a; rw [hv'] at a'; rw [Option.some.inj a, Option.some.inj a']

/-- **C80**: whatever bytes arrive, in whatever datagrams, nothing outside the packets is read and no exception is thrown. -/
theorem never_reads_outside (k : Kind) (ss : List (List UInt8)) : ∃ vs, process k ss = .ok vs := by
  induction ss with
  | nil => exact ⟨[], rfl⟩
  | cons s ss ih =>
    obtain ⟨vs, ih⟩ := ih
    obtain ⟨xs, he, hx⟩ := messages_safe s
    obtain ⟨ws, hw⟩ := values_safe k xs hx
    exact ⟨ws ++ vs, by simp [process, decode, he, hw, ih]⟩

/-- The datagrams are decoded one after the other and do not influence each other. -/
theorem datagrams_in_order (k : Kind) (ss : List (List UInt8)) (vss : List (List Value))
    (h : List.Forall₂ (fun s vs => decode k s = .ok vs) ss vss) : process k ss = .ok vss.flatten := by
  induction h with
  | nil => rfl
  | cons h1 _ ih => simp [process, h1, ih]

/-- **C80** (partial: a blob whose declared size is one of the four largest 32-bit numbers is accepted, see
`Demo.blob_overflow_accepted`): a packet is only accepted if it has the format of an OSC packet, and the messages found are
the ones in it. -/
theorem accepted_is_packet_partial (s : List UInt8) (xs : List Message) (h : packet s = .ok xs)
    (ho : ∀ x ∈ xs, ∀ a ∈ x.args, a.tag = 98 → number (a.start.take 4) < 2 ^ 32 - 4) :
    ∃ ms, Wire .packet s ms ∧ List.Forall₂ IsMessage ms xs := by
  unfold packet at h
  split at h
  · rename_i hs
    obtain ⟨ms, hw⟩ := (parse_sound s.length s le_rfl hs).1 xs h ho
    obtain ⟨xs', he, hx⟩ := packet_wire s ms hw
    refine ⟨ms, hw, ?_⟩
    simp only [messages, packet, hs, if_true, h, Outcome.ok.injEq] at he
    subst he
    exact hx
  · cases h

/-- **C80** (partial in the same way): if something is delivered, the datagram was an OSC packet, and what is delivered is
determined by its messages. -/
theorem delivered_from_packet_partial (k : Kind) (s : List UInt8) (vs : List Value) (h : decode k s = .ok vs) (hne : vs ≠ [])
    (ho : ∀ xs, packet s = .ok xs → ∀ x ∈ xs, ∀ a ∈ x.args, a.tag = 98 → number (a.start.take 4) < 2 ^ 32 - 4) :
    ∃ ms, Wire .packet s ms ∧ vs = (ms.takeWhile fun m => !m.negative k).map fun m => (m.value k).getD (zero k) := by
  cases hp : packet s with
  | ok xs =>
    obtain ⟨ms, hw, _⟩ := accepted_is_packet_partial s xs hp (ho xs hp)
    refine ⟨ms, hw, ?_⟩
    rw [decoded k s ms hw] at h
    exact (Outcome.ok.inj h).symm
  | throw e => simp [decode, messages, hp, values] at h; exact absurd h hne
  | ub => simp [decode, messages, hp] at h

/-- The types of values that can be chosen. -/
theorem setup_iff (t : String) :
    (∃ k, setup t = .ok k) ↔ t = "bool" ∨ t = "int" ∨ t = "uint" ∨ t = "float" ∨ t = "double" := by
  unfold setup
  constructor
  · intro ⟨k, h⟩
    by_contra hc
    simp only [not_or] at hc
    simp [hc] at h
  · rintro (rfl | rfl | rfl | rfl | rfl) <;> exact ⟨_, rfl⟩

theorem setup_kinds : setup "bool" = .ok .bool ∧ setup "int" = .ok .int ∧ setup "uint" = .ok .uint ∧
    setup "float" = .ok .float ∧ setup "double" = .ok .double := by decide

/-! ### Where it is false -/

/-- A message without a value of the right type delivers zero, although there is no such value in it. -/
theorem wrong_type_is_zero (k : Kind) (m : Sent) (hm : m.Ok) (hv : m.value k = none) (hn : m.negative k = false) :
    decode k m.bytes = .ok [zero k] := by
  rw [decoded k _ [m] (.message m hm)]
  simp [hn, hv]

/-- A negative number for an unsigned value drops all following messages of the datagram. -/
theorem negative_drops_the_rest (k : Kind) (s : List UInt8) (ms ms' : List Sent) (m : Sent) (h : Wire .packet s (ms ++ m :: ms'))
    (hv : ∀ m ∈ ms, (m.value k).isSome) (hn : m.negative k) :
    ∃ vs, decode k s = .ok vs ∧ vs.length = ms.length := by
  refine ⟨_, decoded k s _ h, ?_⟩
  have : (ms ++ m :: ms').takeWhile (fun m => !m.negative k) = ms := by
    rw [List.takeWhile_append_of_pos, List.takeWhile_cons, hn]
    · simp
    · intro m' hm'
      have := hv m' hm'
      obtain ⟨address, args⟩ := m'
      cases k with
      | uint =>
        cases args with
        | nil => rfl
        | cons a as =>
          cases a with
          | int32 i =>
            simp only [Sent.value] at this
            split at this
            · rename_i hi; simp [Sent.negative]; omega
            · cases this
          | _ => rfl
      | _ => rfl
  rw [List.length_map, this]

/-- A bundle without elements is a packet according to the OSC specification, but it is rejected. -/
theorem empty_bundle_rejected (time : List UInt8) (h : time.length = 8) :
    packet (bundleTag ++ time) = .throw .invalidArgument := by
  have hl : (bundleTag ++ time).length = 16 := by simp [bundleTag, h]
  rw [packet, hl, if_pos (by decide), parse, hl, if_neg (by simp [bundleTag]), if_pos (by simp [bundleTag]), if_neg (by omega)]

namespace Demo

/-- `/a` with an integer. -/
def int (i : Int) : Sent := ⟨[47, 97], [.int32 i]⟩

theorem int_ok (i : Int) (h : -2 ^ 31 ≤ i ∧ i < 2 ^ 31) : (int i).Ok :=
  ⟨rfl, by simp [int], by intro a ha; simp [int] at ha; subst ha; exact h⟩

/-- The bytes of a message as they are in a datagram. -/
example : (int (-2)).bytes = [47, 97, 0, 0, 44, 105, 0, 0, 255, 255, 255, 254] := by decide

/-- A bundle with the messages 5, -2 and 7, where the first two are in a bundle inside it. -/
def bundle : List UInt8 :=
  bundleTag ++ [0, 0, 0, 0, 0, 0, 0, 1] ++ (toBytes 4 48 ++
    (bundleTag ++ [0, 0, 0, 0, 0, 0, 0, 1] ++ (toBytes 4 12 ++ (int 5).bytes ++ (toBytes 4 12 ++ (int (-2)).bytes))) ++
    (toBytes 4 12 ++ (int 7).bytes))

theorem bundle_wire : Wire .packet bundle [int 5, int (-2), int 7] := by
  have h5 := Wire.message (int 5) (int_ok 5 (by decide))
  have h2 := Wire.message (int (-2)) (int_ok (-2) (by decide))
  have h7 := Wire.message (int 7) (int_ok 7 (by decide))
  have i2 := Wire.last _ _ h2 (by decide)
  have i1 := Wire.cons _ _ _ _ h5 (by decide) i2
  have ib := Wire.bundle [0, 0, 0, 0, 0, 0, 0, 1] _ _ rfl i1
  have o2 := Wire.last _ _ h7 (by decide)
  have o1 := Wire.cons _ _ _ _ ib (by decide) o2
  exact Wire.bundle [0, 0, 0, 0, 0, 0, 0, 1] _ _ rfl o1

example : decode .int bundle = .ok [.int 5, .int (-2), .int 7] := decoded .int bundle _ bundle_wire

/-- The hypotheses of `decoded_partial` are met. -/
example : ∃ vs, decode .int bundle = .ok vs ∧
    List.Forall₂ (fun m v => m.value .int = some v) [int 5, int (-2), int 7] vs :=
  decoded_partial .int bundle _ bundle_wire (by decide)

/-- The message 7 is dropped because of -2. -/
theorem negative_uint_drops : decode .uint bundle = .ok [.uint 5] := decoded .uint bundle _ bundle_wire

example : ∃ vs, decode .uint bundle = .ok vs ∧ vs.length = 1 :=
  negative_drops_the_rest .uint bundle [int 5] [int 7] (int (-2)) bundle_wire (by decide) (by decide)

/-- A decoder for `float` values gets 0 where an integer is sent. -/
theorem integer_for_float : decode .float (int 5).bytes = .ok [.float 0] :=
  wrong_type_is_zero .float (int 5) (int_ok 5 (by decide)) rfl rfl

/-- A message `/a`, a message with the type tag `x` which is not supported, as elements of a bundle. -/
def mixed : List UInt8 :=
  bundleTag ++ [0, 0, 0, 0, 0, 0, 0, 1] ++ (toBytes 4 12 ++ (int 5).bytes ++ (toBytes 4 8 ++ [47, 97, 0, 0, 44, 120, 0, 0]))

/-- One message with an argument of an unknown type makes all messages of the datagram disappear. -/
theorem unknown_type_drops_all : decode .int mixed = .ok [] := by decide +kernel

/-- A message with a blob whose size is declared as 4294967292, and an integer. -/
def overflow : List UInt8 := [47, 97, 0, 0, 44, 98, 105, 0, 255, 255, 255, 252]

def overflowMessage : Message :=
  ⟨[47, 97], [⟨98, 0, [255, 255, 255, 252]⟩, ⟨105, 4, [255, 255, 255, 252]⟩]⟩

theorem overflow_read : packet overflow = .ok [overflowMessage] := by decide +kernel

/-- It is accepted although it has not the format of any OSC packet: the four bytes are taken for the size of the blob as well
as for the integer. -/
theorem blob_overflow_accepted :
    packet overflow = .ok [overflowMessage] ∧ ¬ ∃ ms, Wire .packet overflow ms := by
  refine ⟨overflow_read, ?_⟩
  rintro ⟨ms, hw⟩
  obtain ⟨xs, he, hx⟩ := packet_wire overflow ms hw
  simp only [messages, overflow_read, Outcome.ok.injEq] at he
  subst he
  have hok := wire_ok _ _ _ hw
  cases hx with
  | @cons m _ ms _ h1 _ =>
    have hm := hok m (by simp)
    obtain ⟨address, args⟩ := m
    obtain ⟨_, h2⟩ := h1
    simp only [overflowMessage] at h2
    cases h2 with
    | @cons a _ as _ h3 _ =>
      have ha := hm.args a (by simp)
      obtain ⟨ht, t, hs⟩ := h3
      cases a with
      | blob b =>
        simp only [Argument.Ok] at ha
        simp only [Argument.bytes] at hs
        have h4 := congrArg (fun l => number (l.take 4)) hs
        rw [List.append_assoc, List.take_left' (toBytes_length 4 _), number_toBytes, Nat.mod_eq_of_lt (by omega)] at h4
        have : number (List.take 4 [255, 255, 255, 252]) = 4294967292 := by decide
        omega
      | _ => simp [Argument.tag] at ht

/-- The hypotheses of `accepted_is_packet_partial` are met by the bundle. -/
example : ∃ xs, packet bundle = .ok xs ∧ xs.length = 3 ∧
    ∀ x ∈ xs, ∀ a ∈ x.args, a.tag = 98 → number (a.start.take 4) < 2 ^ 32 - 4 := by
  obtain ⟨xs, he, hx⟩ := packet_wire bundle _ bundle_wire
  refine ⟨xs, ?_, by simpa using hx.length_eq.symm, ?_⟩
  · cases hp : packet bundle with
    | ok ys => rw [messages, hp] at he; exact he
    | throw e =>
      rw [messages, hp] at he
      injection he with he
      subst he
      cases hx
    | ub => rw [messages, hp] at he; cases he
  · cases hx with
    | cons h1 h1' =>
      cases h1' with
      | cons h2 h2' =>
        cases h2' with
        | cons h3 h3' =>
          cases h3'
          intro x hx a ha ht
          have : ∀ (i : Int) (x : Message), IsMessage (int i) x → a ∈ x.args → a.tag ≠ 98 := by
            intro i x hm ha
            obtain ⟨_, h⟩ := hm
            simp only [int] at h
            obtain ⟨xa, xargs⟩ := x
            cases h with
            | cons h4 h5 =>
              cases h5
              simp at ha
              subst ha
              rw [h4.1]; simp [Argument.tag]
          simp at hx
          rcases hx with rfl | rfl | rfl
          · exact absurd ht (this _ _ h1 ha)
          · exact absurd ht (this _ _ h2 ha)
          · exact absurd ht (this _ _ h3 ha)

end Demo

end Visr.Osc
