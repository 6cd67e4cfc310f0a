import Verif.Wiring.Spec
import Verif.CoreRenderer.Lemmas

/-!
# Lemmas about building composites
-/

namespace Visr.Wiring
open Visr Visr.Flow

/-- A connection between two ports. -/
structure Link where
  s : APort
  si : List Nat
  r : APort
  ri : List Nat

def Link.Fits (l : Link) : Prop :=
  l.si.length = l.ri.length ∧ (∀ i ∈ l.si, i < l.s.width) ∧ (∀ i ∈ l.ri, i < l.r.width)

/-- The entry in the table; connections without channels are left out. -/
def Link.conns (l : Link) : List AConn := if l.si.length = 0 then [] else [⟨l.s.id, l.si, l.r.id, l.ri⟩]

def Link.pairs (l : Link) : List (Chan × Chan) :=
  List.zip (l.si.map fun i => (l.s.id, i)) (l.ri.map fun i => (l.r.id, i))

theorem connectLists_ok {s r : APort} {si ri : List Nat} (h : (Link.mk s si r ri).Fits) (t : Tables) :
    connectLists s si r ri t = .ok { t with audio := t.audio ++ (Link.mk s si r ri).conns } := by
  obtain ⟨h1, h2, h3⟩ := h
  simp only at h1 h2 h3
  unfold connectLists Link.conns
  rw [if_neg (by simpa using h1)]
  by_cases h0 : si.length = 0
  · rw [if_pos h0]; simp [h0]
  · have hs : si ≠ [] := by rintro rfl; simp at h0
    have hr : ri ≠ [] := by rintro rfl; simp at h1; exact hs h1
    rw [if_neg h0, if_neg, if_neg]
    · simp [h0]
    · intro hc; exact ((foldl_max_le hr).1 hc) h3
    · intro hc; exact ((foldl_max_le hs).1 hc) h2

theorem whole_fits {s r : APort} (h : s.width = r.width) : (Link.mk s (List.range s.width) r (List.range s.width)).Fits :=
  ⟨rfl, fun i hi => List.mem_range.1 hi, fun i hi => h ▸ List.mem_range.1 hi⟩

theorem exec_audio {site : Site} {sc sp rc rp : String} {s r : APort} (hs : site.findAudio sc sp = some s)
    (hr : site.findAudio rc rp = some r) (h : s.width = r.width) (t : Tables) :
    exec site (.audio sc sp rc rp) t =
      .ok ⟨t.audio ++ (Link.mk s (List.range s.width) r (List.range s.width)).conns, t.param⟩ := by
  unfold exec
  simp only [hs, hr]
  rw [if_neg (by simpa using h)]
  exact connectLists_ok (whole_fits h) t

theorem exec_lists {site : Site} {sc sp rc rp : String} {s r : APort} {si ri : List Nat}
    (hs : site.findAudio sc sp = some s) (hr : site.findAudio rc rp = some r) (h : (Link.mk s si r ri).Fits) (t : Tables) :
    exec site (.audioLists sc sp si rc rp ri) t = .ok ⟨t.audio ++ (Link.mk s si r ri).conns, t.param⟩ := by
  unfold exec
  simp only [hs, hr]
  exact connectLists_ok h t

theorem exec_named {site : Site} {sc sp rc rp : String} {s r : APort} {si ri : List Nat}
    (hs : site.findAudio sc sp = some s) (hr : site.findAudio rc rp = some r) (t : Tables) :
    exec site (.audioNamed sc sp si rc rp ri) t = .ok ⟨t.audio ++ [⟨s.id, si, r.id, ri⟩], t.param⟩ := by
  unfold exec
  simp only [hs, hr]

theorem exec_param {site : Site} {sc sp rc rp : String} {s r : PPort} (hs : site.findParam sc sp = some s)
    (hr : site.findParam rc rp = some r) (t : Tables) :
    exec site (.param sc sp rc rp) t = .ok ⟨t.audio, t.param ++ [⟨s.id, r.id⟩]⟩ := by
  unfold exec
  simp only [hs, hr]

theorem execAll_cons {site : Site} {k : Stmt} {ks : List Stmt} {t t' : Tables} (h : exec site k t = .ok t') :
    execAll site (k :: ks) t = execAll site ks t' := by
  show (do let t ← exec site k t; execAll site ks t) = _
  rw [h]
  rfl

theorem pairs_conns (l : Link) : Flow.pairs l.conns = l.pairs := by
  unfold Link.conns Link.pairs
  by_cases h : l.si.length = 0
  · rw [if_pos h]
    have : l.si = [] := List.length_eq_zero_iff.1 h
    simp [this, Flow.pairs]
  · rw [if_neg h]; simp [Flow.pairs, AConn.pairs]

theorem pairs_append (a b : List AConn) : Flow.pairs (a ++ b) = Flow.pairs a ++ Flow.pairs b := by
  simp [Flow.pairs]

theorem pairs_flatMap (ls : List Link) : Flow.pairs (ls.flatMap Link.conns) = ls.flatMap Link.pairs := by
  induction ls with
  | nil => rfl
  | cons k ks ih => rw [List.flatMap_cons, List.flatMap_cons, pairs_append, ih, pairs_conns]

theorem count_tag (a b : Nat) (l : List Nat) (i : Nat) :
    (l.map fun j => (a, j)).count (b, i) = if a = b then l.count i else 0 := by
  induction l with
  | nil => simp
  | cons x l ih =>
    rw [List.map_cons, List.count_cons, ih, List.count_cons]
    by_cases h : a = b
    · subst h; simp
    · simp [h]

theorem count_links : ∀ {ls : List Link}, (∀ l ∈ ls, l.Fits) → ∀ (q i : Nat),
    ((ls.flatMap Link.pairs).map Prod.snd).count (q, i) =
      (ls.map fun l => if l.r.id = q then l.ri.count i else 0).sum := by
  intro ls
  induction ls with
  | nil => intros; simp
  | cons k ks ih =>
    intro h q i
    rw [List.flatMap_cons, List.map_append, List.count_append, ih (fun k' hk' => h k' (by simp [hk']))]
    have hk := h k (by simp)
    rw [Link.pairs, List.map_snd_zip (by simp [hk.1]), count_tag]
    simp

theorem mem_sends {ls : List Link} (h : ∀ l ∈ ls, l.Fits) (q i : Nat) :
    (q, i) ∈ (ls.flatMap Link.pairs).map Prod.fst ↔ ∃ l ∈ ls, l.s.id = q ∧ i ∈ l.si := by
  have hp : ∀ l ∈ ls, l.pairs.map Prod.fst = l.si.map fun i => (l.s.id, i) := by
    intro l hl
    rw [Link.pairs, List.map_fst_zip (by simp [(h l hl).1])]
  rw [List.map_flatMap, List.mem_flatMap]
  constructor
  · rintro ⟨k, hk, hm⟩
    rw [hp k hk, List.mem_map] at hm
    obtain ⟨j, hj, e⟩ := hm
    obtain ⟨e1, rfl⟩ := Prod.mk.inj e
    exact ⟨k, hk, e1, hj⟩
  · rintro ⟨k, hk, rfl, hi⟩
    refine ⟨k, hk, ?_⟩
    rw [hp k hk]
    exact List.mem_map.2 ⟨i, hi, rfl⟩

/-- Conditions on a list of links. -/
theorem audioOK_of_links {own : List APort} {kids : List (List APort)} {ls : List Link}
    (hs : ∀ l ∈ ls, CanSend APort.input own kids l.s) (hr : ∀ l ∈ ls, CanReceive APort.input own kids l.r)
    (hf : ∀ l ∈ ls, l.Fits)
    (h1 : ∀ r, CanReceive APort.input own kids r → ∀ i < r.width,
      (ls.map fun l => if l.r.id = r.id then l.ri.count i else 0).sum = 1)
    (h2 : ∀ s, CanSend APort.input own kids s → ∀ i < s.width, ∃ l ∈ ls, l.s.id = s.id ∧ i ∈ l.si) :
    AudioOK own kids (ls.flatMap Link.conns) := by
  refine ⟨fun k hk => ?_, fun r hr' i hi => ?_, fun s hs' i hi => ?_⟩
  · obtain ⟨l, hl, hm⟩ := List.mem_flatMap.1 hk
    unfold Link.conns at hm
    split at hm
    · cases hm
    · rw [List.mem_singleton] at hm
      subst hm
      exact ⟨l.s, l.r, hs l hl, rfl, hr l hl, rfl, hf l hl⟩
  · rw [pairs_flatMap, count_links hf]
    exact h1 r hr' i hi
  · rw [pairs_flatMap]
    exact (mem_sends hf s.id i).2 (h2 s hs' i hi)

theorem paramOK_of_links {cmp : Nat → Nat → Option Bool} {own : List PPort} {kids : List (List PPort)}
    {ls : List (PPort × PPort)}
    (hs : ∀ l ∈ ls, CanSend PPort.input own kids l.1) (hr : ∀ l ∈ ls, CanReceive PPort.input own kids l.2)
    (hm : ∀ l ∈ ls, Matches cmp l.1 l.2)
    (h1 : ∀ r, CanReceive PPort.input own kids r → ∃ l ∈ ls, l.2.id = r.id)
    (h2 : ∀ s, CanSend PPort.input own kids s → ∃ l ∈ ls, l.1.id = s.id) :
    ParamOK cmp own kids (ls.map fun l => ⟨l.1.id, l.2.id⟩) := by
  refine ⟨fun k hk => ?_, fun r hr' => ?_, fun s hs' => ?_⟩
  · obtain ⟨l, hl, rfl⟩ := List.mem_map.1 hk
    exact ⟨l.1, l.2, hs l hl, rfl, hr l hl, rfl, hm l hl⟩
  · obtain ⟨l, hl, e⟩ := h1 r hr'
    exact ⟨_, List.mem_map.2 ⟨l, hl, rfl⟩, e⟩
  · obtain ⟨l, hl, e⟩ := h2 s hs'
    exact ⟨_, List.mem_map.2 ⟨l, hl, rfl⟩, e⟩

/-! ## Names -/

/-- All names of audio ports. -/
def Site.table (s : Site) : List (String × String × APort) :=
  (s.audio.flatMap fun q => [("", q.1, q.2), ("this", q.1, q.2)]) ++
    s.parts.flatMap fun p => p.audio.map fun q => (p.name, q.1, q.2)

theorem mem_table {s : Site} {a b : String} {port : APort} (h : s.findAudio a b = some port) : (a, b, port) ∈ s.table := by
  unfold Site.findAudio Site.findComponent at h
  unfold Site.table
  split at h
  · cases h
  · rename_i part hp
    simp only [Option.map_eq_some_iff] at h
    obtain ⟨⟨b', port'⟩, hq, rfl⟩ := h
    have hb := List.find?_some hq
    have hm := List.mem_of_find?_eq_some hq
    simp only [decide_eq_true_eq] at hb
    subst hb
    split at hp
    · rename_i ha
      cases hp
      refine List.mem_append.2 (Or.inl (List.mem_flatMap.2 ⟨_, hm, ?_⟩))
      rcases ha with rfl | rfl <;> simp
    · have hn := List.find?_some hp
      have hmp := List.mem_of_find?_eq_some hp
      simp only [decide_eq_true_eq] at hn
      subst hn
      exact List.mem_append.2 (Or.inr (List.mem_flatMap.2 ⟨_, hmp, List.mem_map.2 ⟨_, hm, rfl⟩⟩))

/-! ## Trees -/

theorem within_composite {own : List APort} {param : List PPort} {kids : List Comp} {ac : List AConn} {pc : List PConn}
    {x : Comp} (h : Within x (.composite own param kids ac pc)) :
    x = .composite own param kids ac pc ∨ ∃ k ∈ kids, Within x k := by
  cases h with
  | self => exact Or.inl rfl
  | child hd hw => exact Or.inr ⟨_, hd, hw⟩

theorem wellConnected_composite {cmp : Nat → Nat → Option Bool} {own : List APort} {param : List PPort}
    {kids : List Comp} {ac : List AConn} {pc : List PConn} (h1 : AudioOK own (kids.map Comp.audio) ac)
    (h2 : ParamOK cmp param (kids.map Comp.param) pc) (h3 : ∀ k ∈ kids, WellConnected cmp k) :
    WellConnected cmp (.composite own param kids ac pc) := by
  intro o p ch ac' pc' hin
  rcases within_composite hin with e | ⟨k, hk, hw⟩
  · injection e with e1 e2 e3 e4 e5
    subst e1 e2 e3 e4 e5
    exact ⟨h1, h2⟩
  · exact h3 k hk _ _ _ _ _ hw

theorem wellConnected_atom {cmp : Nat → Nat → Option Bool} {a : List APort} {p : List PPort} :
    WellConnected cmp (.atom a p) := by
  intro _ _ _ _ _ h
  cases h

theorem distinct_composite {own : List APort} {param : List PPort}
    {kids : List Comp} {ac : List AConn} {pc : List PConn} (h1 : DistinctPorts APort.id own (kids.map Comp.audio))
    (h2 : DistinctPorts PPort.id param (kids.map Comp.param)) (h3 : ∀ k ∈ kids, DistinctAddresses k) :
    DistinctAddresses (.composite own param kids ac pc) := by
  intro o p ch ac' pc' hin
  rcases within_composite hin with e | ⟨k, hk, hw⟩
  · injection e with e1 e2 e3 e4 e5
    subst e1 e2 e3 e4 e5
    exact ⟨h1, h2⟩
  · exact h3 k hk _ _ _ _ _ hw

theorem distinct_atom {a : List APort} {p : List PPort} : DistinctAddresses (.atom a p) := by
  intro _ _ _ _ _ h
  cases h

theorem matches_same (i j : Nat) (a b : Bool) (pr ty c : Nat) :
    Matches CoreRenderer.compareConfig ⟨i, a, pr, ty, c⟩ ⟨j, b, pr, ty, c⟩ := by
  refine ⟨rfl, rfl, ?_⟩
  simp [CoreRenderer.compareConfig]

/-! ## Signals -/

section
variable {S : Type} {site : Site} {v : String → String → List S} {ls : List Link}

theorem carry {conns : List AConn} (hv : Carries site conns v) (hc : conns = ls.flatMap Link.conns) {sc sp rc rp : String} {s r : APort}
    (hs : site.findAudio sc sp = some s) (hr : site.findAudio rc rp = some r) {si ri : List Nat}
    (hl : Link.mk s si r ri ∈ ls) {n i j : Nat} (h1 : si[n]? = some i) (h2 : ri[n]? = some j) :
    (v rc rp)[j]? = (v sc sp)[i]? := by
  refine (hv.wires sc sp s i rc rp r j hs hr ?_).symm
  rw [hc, pairs_flatMap]
  refine List.mem_flatMap.2 ⟨_, hl, ?_⟩
  unfold Link.pairs
  refine List.mem_of_getElem? (i := n) ?_
  rw [List.getElem?_zip_eq_some]
  simp [h1, h2]

theorem carry_whole {conns : List AConn} (hv : Carries site conns v) (hc : conns = ls.flatMap Link.conns) {sc sp rc rp : String} {s r : APort}
    (hs : site.findAudio sc sp = some s) (hr : site.findAudio rc rp = some r) (hw : s.width = r.width) {n : Nat} (hn : n = s.width)
    (hl : Link.mk s (List.range n) r (List.range n) ∈ ls) : v rc rp = v sc sp := by
  subst hn
  apply List.ext_getElem?
  intro i
  by_cases hi : i < s.width
  · exact carry hv hc hs hr hl (n := i) (by simp [hi]) (by simp [hi])
  · rw [List.getElem?_eq_none (by rw [hv.width _ _ _ hr]; omega), List.getElem?_eq_none (by rw [hv.width _ _ _ hs]; omega)]

end

end Visr.Wiring
