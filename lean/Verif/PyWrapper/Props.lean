import Verif.PyWrapper.Model

/-!
# C96: Python components in C++ signal flows
-/

namespace Visr.PyWrapper
open Visr Visr.Flow Visr.Wiring

/-! ## Search paths -/

/-- A list of paths as text: each path is followed by at least one comma or blank. -/
def listed (before : Word) (l : List (Word × Word)) : Word := before ++ l.flatMap fun p => p.1 ++ p.2

/-- A text of separators. -/
def Seps (w : Word) : Prop := ∀ c ∈ w, isSeparator c = true

/-- A path without separators. -/
def Clean (w : Word) : Prop := w ≠ [] ∧ ∀ c ∈ w, isSeparator c = false

theorem split_clean (rest : Word) : ∀ (w acc : Word) (b : Bool), (∀ c ∈ w, isSeparator c = false) → w ≠ [] →
    splitTokens acc b (w ++ rest) = splitTokens (acc ++ w) false rest
  | [], _, _, _, h => absurd rfl h
  | c :: cs, acc, b, h, _ => by
    have hc := h c (by simp)
    rw [List.cons_append, splitTokens, if_neg (by simp [hc])]
    cases cs with
    | nil => simp
    | cons d ds => rw [split_clean rest (d :: ds) (acc ++ [c]) false (fun x hx => h x (by simp [hx])) (by simp)]; simp

theorem split_seps_in (rest : Word) : ∀ (w : Word), Seps w → splitTokens [] true (w ++ rest) = splitTokens [] true rest
  | [], _ => rfl
  | c :: cs, h => by
    rw [List.cons_append, splitTokens, if_pos (h c (by simp)), if_pos rfl]
    exact split_seps_in rest cs fun x hx => h x (by simp [hx])

theorem split_seps (acc rest : Word) {w : Word} (h : Seps w) (hn : w ≠ []) :
    splitTokens acc false (w ++ rest) = acc :: splitTokens [] true rest := by
  cases w with
  | nil => exact absurd rfl hn
  | cons c cs =>
    rw [List.cons_append, splitTokens, if_pos (h c (by simp)), if_neg (by simp),
      split_seps_in rest cs fun x hx => h x (by simp [hx])]

theorem split_list : ∀ (l : List (Word × Word)), (∀ p ∈ l, Clean p.1 ∧ Seps p.2 ∧ p.2 ≠ []) → ∀ b : Bool,
    (splitTokens [] b (l.flatMap fun p => p.1 ++ p.2)).filter (· ≠ []) = l.map Prod.fst
  | [], _, b => by simp [splitTokens]
  | p :: ps, h, b => by
    obtain ⟨h1, h2, h3⟩ := h p (by simp)
    rw [List.flatMap_cons, List.append_assoc, split_clean _ _ _ _ h1.2 h1.1, List.nil_append, split_seps _ _ h2 h3,
      List.filter_cons_of_pos (by simpa using h1.1), split_list ps (fun x hx => h x (by simp [hx])) true, List.map_cons]

/-- **C96.** A text of existing directories, separated by any commas and blanks, is read as the list of these directories;
a directory that does not exist is refused. (Partial: directories with blanks in their names are split, see
`blank_splits`.) -/
theorem paths_partial {there : Word → Bool} {before : Word} {l : List (Word × Word)} (hb : Seps before)
    (h : ∀ p ∈ l, Clean p.1 ∧ Seps p.2 ∧ p.2 ≠ []) :
    pathList there (listed before l) =
      if ∀ p ∈ l, there p.1 = true then .ok (l.map Prod.fst) else .throw .invalidArgument := by
  have e : (splitTokens [] false (listed before l)).filter (· ≠ []) = l.map Prod.fst := by
    unfold listed
    cases before with
    | nil => exact split_list l h false
    | cons c cs =>
      rw [split_seps _ _ hb (by simp), List.filter_cons_of_neg (by simp)]
      exact split_list l h true
  unfold pathList
  dsimp only
  rw [e]
  by_cases ha : ∀ p ∈ l, there p.1 = true
  · rw [if_pos ha, if_pos]
    rw [List.all_eq_true]
    intro x hx
    obtain ⟨p, hp, rfl⟩ := List.mem_map.1 hx
    exact ha p hp
  · rw [if_neg ha, if_neg]
    rw [List.all_eq_true]
    intro hc
    exact ha fun p hp => hc _ (List.mem_map_of_mem hp)

/-- **C96 (negation, blanks).** A directory with a blank in its name cannot be given: its parts are looked for. -/
theorem blank_splits {there : Word → Bool} {a b : Word} (ha : Clean a) (hb : Clean b) :
    pathList there (a ++ ' ' :: b) = if there a && there b then .ok [a, b] else .throw .invalidArgument := by
  have e : (splitTokens [] false (a ++ ' ' :: b)).filter (· ≠ []) = [a, b] := by
    rw [split_clean _ _ _ _ ha.2 ha.1, List.nil_append]
    have h1 := split_seps a b (w := [' ']) (by intro c hc; rw [List.mem_singleton.1 hc]; rfl) (by simp)
    have h2 := split_clean [] b [] true hb.2 hb.1
    rw [List.append_nil, List.nil_append] at h2
    rw [show ' ' :: b = [' '] ++ b from rfl, h1, h2]
    simp [splitTokens, ha.1, hb.1]
  unfold pathList
  dsimp only
  rw [e]
  simp

/-! ## Modules -/

/-- **C96.** The module that is loaded is the one imported before under this name, else the one of the first directory of
the system path followed by the given paths that contains it. The given paths remain part of the system path. -/
theorem module_loaded (py : Python) (st : Interp) (n : Word) (paths : List Word) :
    (loadModule py st n paths).1 =
      (match (st.imported.find? (fun m => m.1 = n)).map Prod.snd with
        | some o => .ok o
        | none =>
          match (st.sysPath ++ paths).findSome? (fun d => py.find d n) with
          | some o => .ok o
          | none => .throw .runtimeError) ∧
      (loadModule py st n paths).2.sysPath = st.sysPath ++ paths := by
  unfold loadModule loadModule2 importModule
  dsimp only
  cases st.imported.find? (fun m => m.1 = n) with
  | some m => exact ⟨rfl, rfl⟩
  | none =>
    dsimp only [Option.map_none]
    cases (st.sysPath ++ paths).findSome? (fun d => py.find d n) with
    | some o => exact ⟨rfl, rfl⟩
    | none => exact ⟨rfl, rfl⟩

/-- **C96 (negation, separate search path).** The module search path of the variant with two paths has no effect: a
module that is only there is not found. -/
theorem module_path_unused {py : Python} {st : Interp} {n dir : Word} {o : Obj} {additional : List Word}
    (h0 : st.imported.find? (fun m => m.1 = n) = none) (_h : py.find dir n = some o)
    (hs : ∀ d ∈ st.sysPath ++ additional, py.find d n = none) :
    (loadModule2 py st n [dir] additional).1 = .throw .runtimeError := by
  unfold loadModule2 importModule
  dsimp only
  rw [h0]
  have : (st.sysPath ++ additional).findSome? (fun d => py.find d n) = none := by
    rw [List.findSome?_eq_none_iff]
    exact hs
  dsimp only
  rw [this]

/-! ## Class names -/

theorem splitDots_word (rest : Word) : ∀ (w acc : Word), '.' ∉ w → splitDots acc (w ++ rest) = splitDots (acc ++ w) rest
  | [], acc, _ => by simp
  | c :: cs, acc, h => by
    rw [List.cons_append, splitDots, if_neg (fun e : c = '.' => h (e ▸ List.mem_cons_self)),
      splitDots_word rest cs _ fun hc => h (List.mem_cons_of_mem _ hc)]
    simp

/-- A nested name as text. -/
def dotted : List Word → Word
  | [] => []
  | [n] => n
  | n :: ns => n ++ '.' :: dotted ns

theorem splitDots_dotted : ∀ (ns : List Word), ns ≠ [] → (∀ n ∈ ns, '.' ∉ n) → splitDots [] (dotted ns) = ns
  | [], h, _ => absurd rfl h
  | [n], _, h => by
    have := splitDots_word [] n [] (h n (by simp))
    rw [List.append_nil, List.nil_append] at this
    rw [dotted, this, splitDots]
  | n :: m :: ns, _, h => by
    rw [dotted, splitDots_word _ _ _ (h n (by simp)), List.nil_append, splitDots, if_pos rfl,
      splitDots_dotted (m :: ns) (by simp) fun x hx => h x (by simp [hx])]
    simp

theorem dropWhile_seps {p : Char → Bool} (rest : Word) : ∀ (w : Word), (∀ c ∈ w, p c = true) →
    (w ++ rest).dropWhile p = rest.dropWhile p
  | [], _ => rfl
  | c :: cs, h => by
    rw [List.cons_append, List.dropWhile_cons_of_pos (h c (by simp))]
    exact dropWhile_seps rest cs fun x hx => h x (by simp [hx])

theorem dropWhile_none {p : Char → Bool} {w : Word} (h : ∀ c ∈ w, p c = false) : w.dropWhile p = w := by
  cases w with
  | nil => rfl
  | cons c cs => rw [List.dropWhile_cons_of_neg (by simp [h c (by simp)])]

theorem trim_spaces {a n b : Word} (ha : ∀ c ∈ a, isSpace c = true) (hb : ∀ c ∈ b, isSpace c = true)
    (hn : ∀ c ∈ n, isSpace c = false) : trim (a ++ n ++ b) = n := by
  unfold trim
  rw [List.append_assoc, dropWhile_seps _ _ ha]
  cases n with
  | nil =>
    have : ([] ++ b).dropWhile isSpace = [] := by
      have := dropWhile_seps (p := isSpace) [] b hb
      simpa using this
    rw [this]; rfl
  | cons c cs =>
    rw [List.cons_append, List.dropWhile_cons_of_neg (by simp [hn c (by simp)]), ← List.cons_append,
      List.reverse_append, dropWhile_seps _ _ (fun x hx => hb x (List.mem_reverse.1 hx)),
      dropWhile_none (fun x hx => hn x (List.mem_reverse.1 hx)), List.reverse_reverse]

/-- **C96.** A class is found by its nested name, with any white space around the parts. -/
theorem class_found {m c : Obj} {parts : List (Word × Word × Word)} (hne : parts ≠ [])
    (hp : ∀ p ∈ parts, (∀ c ∈ p.1, isSpace c = true) ∧ (∀ c ∈ p.2.1, isSpace c = false ∧ c ≠ '.') ∧
      (∀ c ∈ p.2.2, isSpace c = true)) :
    lookup m ((splitDots [] (dotted (parts.map fun p => p.1 ++ p.2.1 ++ p.2.2))).map trim) = some c ↔
      lookup m (parts.map fun p => p.2.1) = some c := by
  rw [splitDots_dotted _ (by simpa using hne)]
  · rw [List.map_map]
    have : parts.map (trim ∘ fun p => p.1 ++ p.2.1 ++ p.2.2) = parts.map fun p => p.2.1 := by
      apply List.map_congr_left
      intro p hm
      obtain ⟨h1, h2, h3⟩ := hp p hm
      exact trim_spaces h1 h3 fun c hc => (h2 c hc).1
    rw [this]
  · intro n hn
    obtain ⟨p, hm, rfl⟩ := List.mem_map.1 hn
    obtain ⟨h1, h2, h3⟩ := hp p hm
    intro hc
    simp only [List.mem_append] at hc
    rcases hc with (hc | hc) | hc
    · exact absurd (h1 _ hc) (by decide)
    · exact (h2 _ hc).2 rfl
    · exact absurd (h3 _ hc) (by decide)

/-! ## Ports -/

/-- The connection of a port of the wrapper with the port of the contained component. -/
def link (base : Nat) (p : APort) : Link :=
  if p.input then ⟨outerAudio base p, List.range p.width, p, List.range p.width⟩
  else ⟨p, List.range p.width, outerAudio base p, List.range p.width⟩

theorem link_fits (base : Nat) (p : APort) : (link base p).Fits := by
  unfold link
  split <;> exact ⟨rfl, fun i hi => List.mem_range.1 hi, fun i hi => List.mem_range.1 hi⟩

theorem link_r (base : Nat) (q : APort) :
    (link base q).r.id = (if q.input then q.id else base + q.id) ∧ (link base q).ri = List.range q.width := by
  unfold link outerAudio
  split <;> exact ⟨rfl, rfl⟩

theorem connectAudio_ok (base : Nat) : ∀ (ps : List APort) (t : Tables),
    connectAudio base ps t = .ok { t with audio := t.audio ++ (ps.map (link base)).flatMap Link.conns }
  | [], t => by simp [connectAudio]
  | p :: ps, t => by
    have h : (if p.input then connectWhole (outerAudio base p) p t else connectWhole p (outerAudio base p) t) =
        .ok { t with audio := t.audio ++ (link base p).conns } := by
      have hf := link_fits base p
      unfold link at hf ⊢
      split
      · rename_i hi
        rw [if_pos hi] at hf
        simp only [connectWhole, outerAudio, ne_eq, not_true_eq_false, if_false]
        exact connectLists_ok hf t
      · rename_i hi
        rw [if_neg hi] at hf
        simp only [connectWhole, outerAudio, ne_eq, not_true_eq_false, if_false]
        exact connectLists_ok hf t
    rw [connectAudio, h]
    dsimp only
    rw [connectAudio_ok base ps]
    simp

/-- The connection of a parameter port. -/
def plink (base : Nat) (p : PPort) : PPort × PPort := if p.input then (outerParam base p, p) else (p, outerParam base p)

theorem connectParam_eq (base : Nat) : ∀ (ps : List PPort) (t : Tables),
    connectParam base ps t = { t with param := t.param ++ (ps.map (plink base)).map fun l => ⟨l.1.id, l.2.id⟩ }
  | [], t => by simp [connectParam]
  | p :: ps, t => by
    rw [connectParam, connectParam_eq base ps]
    have : (if p.input then (⟨base + p.id, p.id⟩ : PConn) else ⟨p.id, base + p.id⟩) =
        ⟨(plink base p).1.id, (plink base p).2.id⟩ := by
      unfold plink outerParam
      split <;> rfl
    rw [this]
    simp

/-- The port of the wrapper and the one inside it are the same for the outside: name, direction, type, width. -/
def SameAudio (a b : String × APort) : Prop :=
  a.1 = b.1 ∧ a.2.input = b.2.input ∧ a.2.width = b.2.width ∧ a.2.sampleType = b.2.sampleType

/-- The same for parameter ports: name, direction, protocol, type, configuration. -/
def SameParam (a b : String × PPort) : Prop :=
  a.1 = b.1 ∧ a.2.input = b.2.input ∧ a.2.protocol = b.2.protocol ∧ a.2.type = b.2.type ∧ a.2.config = b.2.config

/-- **C96.** Around every component the wrapper has ports with the same names, directions, types, widths and
configurations in the same order, and each is connected, channel by channel, to its counterpart inside. -/
theorem ports_mirrored (name : String) (base : Nat) (inner : Part) :
    ∃ w conns pconns, wrap name base inner = .ok w ∧ w.body = some ([inner.comp], conns, pconns) ∧
      w.audio.length = inner.audio.length ∧ w.param.length = inner.param.length ∧
      (∀ (k : Nat) a b, w.audio[k]? = some a → inner.audio[k]? = some b → SameAudio a b ∧
        ∀ i < b.2.width, (if b.2.input then ((a.2.id, i), (b.2.id, i)) else ((b.2.id, i), (a.2.id, i))) ∈ pairs conns) ∧
      (∀ (k : Nat) a b, w.param[k]? = some a → inner.param[k]? = some b → SameParam a b ∧
        (if b.2.input then (⟨a.2.id, b.2.id⟩ : PConn) else ⟨b.2.id, a.2.id⟩) ∈ pconns) := by
  unfold wrap
  rw [connectAudio_ok]
  dsimp only
  rw [connectParam_eq]
  refine ⟨_, _, _, rfl, rfl, by simp, by simp, ?_, ?_⟩
  · intro k a b ha hb
    rw [List.getElem?_map, hb, Option.map_some, Option.some.injEq] at ha
    subst ha
    refine ⟨⟨rfl, rfl, rfl, rfl⟩, fun i hi => ?_⟩
    rw [List.nil_append, pairs_flatMap, List.mem_flatMap]
    refine ⟨link base b.2, List.mem_map_of_mem (List.mem_map_of_mem (List.mem_of_getElem? hb)), ?_⟩
    have hz : ∀ x y : Nat, ((x, i), (y, i)) ∈ List.zip ((List.range b.2.width).map fun j => (x, j))
        ((List.range b.2.width).map fun j => (y, j)) := by
      intro x y
      rw [List.zip_map', List.mem_map]
      exact ⟨i, List.mem_range.2 hi, rfl⟩
    unfold link
    by_cases hin : b.2.input = true
    · rw [if_pos hin, if_pos hin]; exact hz _ _
    · rw [if_neg hin, if_neg hin]; exact hz _ _
  · intro k a b ha hb
    rw [List.getElem?_map, hb, Option.map_some, Option.some.injEq] at ha
    subst ha
    refine ⟨⟨rfl, rfl, rfl, rfl, rfl⟩, ?_⟩
    show _ ∈ [] ++ _
    rw [List.nil_append, List.map_map, List.mem_map]
    refine ⟨b.2, List.mem_map_of_mem (List.mem_of_getElem? hb), ?_⟩
    simp only [Function.comp, plink]
    by_cases hin : b.2.input = true
    · rw [if_pos hin, if_pos hin]; try rfl
    · rw [if_neg hin, if_neg hin]; try rfl

theorem sum_one {L : List APort} (hn : (L.map APort.id).Nodup) {p : APort} (hp : p ∈ L) (f : APort → Nat) :
    (L.map fun q => if q.id = p.id then f q else 0).sum = f p := by
  induction L with
  | nil => cases hp
  | cons q t ih =>
    rw [List.map_cons, List.nodup_cons] at hn
    rw [List.map_cons, List.sum_cons]
    rcases List.mem_cons.1 hp with h | h
    · subst h
      have : (t.map fun q => if q.id = p.id then f q else 0) = t.map fun _ => 0 := by
        apply List.map_congr_left
        intro q hq
        rw [if_neg]
        intro e
        exact hn.1 (e ▸ List.mem_map_of_mem hq)
      rw [if_pos rfl, this]
      simp
    · have : q.id ≠ p.id := fun e => hn.1 (e ▸ List.mem_map_of_mem h)
      rw [if_neg this, ih hn.2 h, Nat.zero_add]

/-- **C96.** A well-connected Python component stays well connected inside the wrapper: no port of either is left
unconnected, and no input has two senders. -/
theorem wrapper_connected {cmp : Nat → Nat → Option Bool} {name : String} {base : Nat} {inner w : Part}
    (h : wrap name base inner = .ok w) (hw : WellConnected cmp inner.comp)
    (ha : ((inner.audio.map Prod.snd).map APort.id).Nodup) (hb : ∀ p ∈ inner.audio, p.2.id < base)
    (hc : ∀ p ∈ inner.param, cmp p.2.config p.2.config = some true) : WellConnected cmp w.comp := by
  have eA : inner.comp.audio = inner.audio.map Prod.snd := by unfold Part.comp; split <;> rfl
  have eP : inner.comp.param = inner.param.map Prod.snd := by unfold Part.comp; split <;> rfl
  unfold wrap at h
  rw [connectAudio_ok] at h
  dsimp only at h
  rw [connectParam_eq] at h
  cases h
  generalize inner.comp = ic at *
  unfold Part.comp
  dsimp only
  rw [List.map_map, List.map_map, List.nil_append, List.nil_append]
  have own : inner.audio.map (Prod.snd ∘ fun q => (q.1, outerAudio base q.2)) =
      (inner.audio.map Prod.snd).map (outerAudio base) := by simp
  have ownP : inner.param.map (Prod.snd ∘ fun q => (q.1, outerParam base q.2)) =
      (inner.param.map Prod.snd).map (outerParam base) := by simp
  rw [own, ownP]
  have hb' : ∀ p ∈ inner.audio.map Prod.snd, p.id < base := by
    intro p hp
    obtain ⟨q, hq, rfl⟩ := List.mem_map.1 hp
    exact hb q hq
  have hc' : ∀ p ∈ inner.param.map Prod.snd, cmp p.config p.config = some true := by
    intro p hp
    obtain ⟨q, hq, rfl⟩ := List.mem_map.1 hp
    exact hc q hq
  refine wellConnected_composite ?_ ?_ ?_
  · rw [show List.map Comp.audio [ic] = [inner.audio.map Prod.snd] by simp [eA]]
    generalize inner.audio.map Prod.snd = L at *
    apply audioOK_of_links
    · intro l hl
      obtain ⟨p, hp, rfl⟩ := List.mem_map.1 hl
      unfold link
      by_cases hi : p.input = true
      · rw [if_pos hi]; exact Or.inl ⟨List.mem_map_of_mem hp, hi⟩
      · rw [if_neg hi]; exact Or.inr ⟨L, by simp, hp, by simpa using hi⟩
    · intro l hl
      obtain ⟨p, hp, rfl⟩ := List.mem_map.1 hl
      unfold link
      by_cases hi : p.input = true
      · rw [if_pos hi]; exact Or.inr ⟨L, by simp, hp, hi⟩
      · rw [if_neg hi]; exact Or.inl ⟨List.mem_map_of_mem hp, by simpa [outerAudio] using hi⟩
    · intro l hl
      obtain ⟨p, hp, rfl⟩ := List.mem_map.1 hl
      exact link_fits base p
    · intro r hr i hi
      rw [List.map_map]
      rcases hr with ⟨hm, hin⟩ | ⟨c, hcm, hm, hin⟩
      · obtain ⟨p, hp, rfl⟩ := List.mem_map.1 hm
        have : L.map ((fun l => if l.r.id = (outerAudio base p).id then l.ri.count i else 0) ∘ link base) =
            L.map fun q => if q.id = p.id then (List.range q.width).count i else 0 := by
          apply List.map_congr_left
          intro q hq
          have hq' := hb' q hq
          simp only [Function.comp, link_r]
          by_cases hqi : q.input = true
          · have hne : q.id ≠ p.id := by
              intro e
              have : q = p := by
                have := List.inj_on_of_nodup_map ha hq hp e
                exact this
              rw [this] at hqi
              simp [outerAudio, hqi] at hin
            simp only [if_pos hqi]
            rw [if_neg hne, if_neg]
            simp only [outerAudio]
            omega
          · simp only [if_neg hqi]
            simp only [outerAudio, Nat.add_left_cancel_iff]
        rw [this, sum_one ha hp]
        exact List.count_eq_one_of_mem List.nodup_range (List.mem_range.2 hi)
      · rw [List.mem_singleton] at hcm
        subst hcm
        have : c.map ((fun l => if l.r.id = r.id then l.ri.count i else 0) ∘ link base) =
            c.map fun q => if q.id = r.id then (List.range q.width).count i else 0 := by
          apply List.map_congr_left
          intro q hq
          have hr' := hb' r hm
          simp only [Function.comp, link_r]
          by_cases hqi : q.input = true
          · simp only [if_pos hqi]
          · have hne : q.id ≠ r.id := by
              intro e
              rw [List.inj_on_of_nodup_map ha hq hm e] at hqi
              exact hqi hin
            simp only [if_neg hqi]
            rw [if_neg hne, if_neg]
            omega
        rw [this, sum_one ha hm]
        exact List.count_eq_one_of_mem List.nodup_range (List.mem_range.2 hi)
    · intro s hs i hi
      rcases hs with ⟨hm, hin⟩ | ⟨c, hcm, hm, hin⟩
      · obtain ⟨p, hp, rfl⟩ := List.mem_map.1 hm
        refine ⟨link base p, List.mem_map_of_mem hp, ?_⟩
        unfold link
        rw [if_pos (show p.input = true from hin)]
        exact ⟨rfl, List.mem_range.2 hi⟩
      · rw [List.mem_singleton] at hcm
        subst hcm
        refine ⟨link base s, List.mem_map_of_mem hm, ?_⟩
        unfold link
        rw [if_neg (by simp [hin])]
        exact ⟨rfl, List.mem_range.2 hi⟩
  · rw [show List.map Comp.param [ic] = [inner.param.map Prod.snd] by simp [eP]]
    generalize inner.param.map Prod.snd = L at *
    apply paramOK_of_links
    · intro l hl
      obtain ⟨p, hp, rfl⟩ := List.mem_map.1 hl
      unfold plink
      by_cases hi : p.input = true
      · rw [if_pos hi]; exact Or.inl ⟨List.mem_map_of_mem hp, hi⟩
      · rw [if_neg hi]; exact Or.inr ⟨L, by simp, hp, by simpa using hi⟩
    · intro l hl
      obtain ⟨p, hp, rfl⟩ := List.mem_map.1 hl
      unfold plink
      by_cases hi : p.input = true
      · rw [if_pos hi]; exact Or.inr ⟨L, by simp, hp, hi⟩
      · rw [if_neg hi]; exact Or.inl ⟨List.mem_map_of_mem hp, by simpa [outerParam] using hi⟩
    · intro l hl
      obtain ⟨p, hp, rfl⟩ := List.mem_map.1 hl
      unfold plink
      split <;> exact ⟨rfl, rfl, hc' p hp⟩
    · intro r hr
      rcases hr with ⟨hm, hin⟩ | ⟨c, hcm, hm, hin⟩
      · obtain ⟨p, hp, rfl⟩ := List.mem_map.1 hm
        refine ⟨plink base p, List.mem_map_of_mem hp, ?_⟩
        unfold plink
        have : p.input = false := hin
        rw [if_neg (by simp [this])]
      · rw [List.mem_singleton] at hcm
        subst hcm
        refine ⟨plink base r, List.mem_map_of_mem hm, ?_⟩
        unfold plink
        rw [if_pos hin]
    · intro s hs
      rcases hs with ⟨hm, hin⟩ | ⟨c, hcm, hm, hin⟩
      · obtain ⟨p, hp, rfl⟩ := List.mem_map.1 hm
        refine ⟨plink base p, List.mem_map_of_mem hp, ?_⟩
        unfold plink
        have : p.input = true := hin
        rw [if_pos this]
      · rw [List.mem_singleton] at hcm
        subst hcm
        refine ⟨plink base s, List.mem_map_of_mem hm, ?_⟩
        unfold plink
        rw [if_neg (by simp [hin])]
  · intro k hk
    rw [List.mem_singleton] at hk
    subst hk
    exact hw

/-! ## Creation -/

/-- **C96.** A wrapper is created if and only if the module is loaded, the class is found in it, the texts of the
arguments have values and the class, called with the given name and these arguments, gives a component. -/
theorem created_iff {py : Python} {there : Word → Bool} {st : Interp} {name : String}
    {moduleName className posArgs kwArgs paths : Word} {base : Nat} {w : Part} :
    (wrapper py there st name moduleName className posArgs kwArgs paths base).1 = .ok w ↔
      ∃ m c cls a k inner, (loadModuleText py there st moduleName paths).1 = .ok m ∧
        lookup m ((splitDots [] className).map trim) = some c ∧ c.cls = some cls ∧
        (if posArgs = [] then some [] else py.tuple posArgs) = some a ∧
        (if kwArgs = [] then some [] else py.dict kwArgs) = some k ∧
        py.construct cls name.toList a k = some (some inner) ∧ wrap name base inner = .ok w := by
  unfold wrapper
  generalize (if posArgs = [] then some [] else py.tuple posArgs) = A
  generalize (if kwArgs = [] then some [] else py.dict kwArgs) = K
  generalize loadModuleText py there st moduleName paths = L
  constructor
  · intro h
    split at h <;> try cases h
    rename_i m st'
    split at h <;> try cases h
    rename_i c hc
    split at h <;> try cases h
    rename_i a k
    split at h <;> try cases h
    rename_i cls hcls
    split at h <;> try cases h
    rename_i inner hi
    exact ⟨m, c, cls, a, k, inner, rfl, hc, hcls, rfl, rfl, hi, h⟩
  · rintro ⟨m, c, cls, a, k, inner, h1, h2, h3, rfl, rfl, h6, h7⟩
    obtain ⟨l1, l2⟩ := L
    dsimp only at h1
    subst h1
    dsimp only
    rw [h2]
    dsimp only
    rw [h3]
    dsimp only
    rw [h6]
    exact h7

/-- **C96.** If it is not created, a runtime error is thrown. -/
theorem refused {py : Python} {there : Word → Bool} {st : Interp} {name : String}
    {moduleName className posArgs kwArgs paths : Word} {base : Nat}
    (h : ∀ w, (wrapper py there st name moduleName className posArgs kwArgs paths base).1 ≠ .ok w) :
    (wrapper py there st name moduleName className posArgs kwArgs paths base).1 = .throw .runtimeError := by
  have hu : (loadModuleText py there st moduleName paths).1 ≠ .ub := by
    unfold loadModuleText pathList
    dsimp only
    split
    · rw [loadModule, loadModule2]; split <;> simp
    · simp
    · rename_i hp; split at hp <;> cases hp
  revert h hu
  unfold wrapper
  generalize (if posArgs = [] then some [] else py.tuple posArgs) = A
  generalize (if kwArgs = [] then some [] else py.dict kwArgs) = K
  generalize loadModuleText py there st moduleName paths = L
  intro h hu
  split
  · rfl
  · exact absurd rfl hu
  · rename_i m st' 
    dsimp only at h
    generalize lookup m ((splitDots [] className).map trim) = C at *
    cases C with
    | none => rfl
    | some c =>
      dsimp only at h ⊢
      cases A with
      | none => rfl
      | some a =>
        cases K with
        | none => rfl
        | some k =>
          dsimp only at h ⊢
          cases hcls : c.cls with
          | none => rfl
          | some cls =>
            rw [hcls] at h
            dsimp only at h ⊢
            cases hi : py.construct cls name.toList a k with
            | none => rfl
            | some o =>
              cases o with
              | none => rfl
              | some inner =>
                rw [hi] at h
                dsimp only at h
                obtain ⟨w, _, _, hw, _⟩ := ports_mirrored name base inner
                exact absurd hw (h w)

/-- **C96 (negation, name).** The component is not known to its parent under the name given to it. -/
theorem name_differs {name : String} {base : Nat} {inner w : Part} (h : wrap name base inner = .ok w) :
    w.name = name ++ "_wrapper" ∧ w.name ≠ name := by
  unfold wrap at h
  rw [connectAudio_ok] at h
  cases h
  refine ⟨rfl, fun e => ?_⟩
  have := congrArg String.length (show name ++ "_wrapper" = name from e)
  rw [String.length_append] at this
  have h8 : "_wrapper".length = 8 := by decide +kernel
  omega

/-! ## Examples -/

/-- A component with a stereo input, a mono output and a parameter input. -/
def sample : Part := ⟨"p", [("in", ⟨0, true, 2, 0⟩), ("out", ⟨1, false, 1, 0⟩)], [("gain", ⟨0, true, 1, 2, 3⟩)], none⟩

/-- A module with the class `ns.Cls`. -/
def sampleModule : Obj := .mk [("ns".toList, .mk [("Cls".toList, .mk [] (some 0))] none)] none

/-- An interpreter that finds the module in `/a`. -/
def samplePython : Python where
  find d n := if d = "/a".toList ∧ n = "m".toList then some sampleModule else none
  tuple w := if w = "5,".toList then some [5] else none
  dict _ := none
  construct _ n a k := if n = "p".toList ∧ a = [5] ∧ k = [] then some (some sample) else none

example : pathList (fun w => w ≠ "/c".toList) ", /a,, /b ".toList = .ok ["/a".toList, "/b".toList] := by decide +kernel
example : pathList (fun w => w ≠ "/c".toList) "/a,/c,".toList = .throw .invalidArgument := by decide +kernel
example : Clean "/my".toList ∧ Clean "dir".toList := by unfold Clean; decide +kernel
example : (wrapper samplePython (fun _ => true) ⟨[], []⟩ "p" "m".toList "ns . Cls".toList "5,".toList [] "/b,/a".toList
    10).1 = wrap "p" 10 sample := by
  have : (wrapper samplePython (fun _ => true) ⟨[], []⟩ "p" "m".toList "ns . Cls".toList "5,".toList [] "/b,/a".toList
    10).1 = wrap "p" 10 sample := rfl
  exact this
example : ∃ w, wrap "p" 10 sample = .ok w ∧ w.audio = [("in", ⟨10, true, 2, 0⟩), ("out", ⟨11, false, 1, 0⟩)] ∧
    w.name = "p_wrapper" := ⟨_, rfl, rfl, rfl⟩
example : WellConnected (fun _ _ => some true) sample.comp ∧ ((sample.audio.map Prod.snd).map APort.id).Nodup ∧
    ∀ p ∈ sample.audio, p.2.id < 10 := by
  refine ⟨?_, by decide, by decide⟩
  exact wellConnected_atom
example : samplePython.find "/a".toList "m".toList = some sampleModule ∧
    ∀ d ∈ ["/b".toList] ++ ["/d".toList], samplePython.find d "m".toList = none := by
  refine ⟨?_, ?_⟩
  · unfold samplePython
    dsimp only
    rw [if_pos (And.intro rfl rfl)]
  · intro d hd
    refine if_neg ?_
    simp only [List.cons_append, List.nil_append, List.mem_cons, List.not_mem_nil, or_false] at hd
    rintro ⟨rfl, _⟩
    revert hd
    decide +kernel

end Visr.PyWrapper
