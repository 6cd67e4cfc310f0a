import Verif.FilterMatrix.Lemmas

/-!
# The filter matrix of the matrix convolver (C79)
-/

namespace Visr.FilterMatrix

/-! ### Concrete case -/

instance {K : Type} (f : List (Nat × Impulses K)) : Decidable (Ascending f) := by unfold Ascending; infer_instance
instance {K : Type} (f : List (Nat × Impulses K)) (n len : Nat) : Decidable (Fits f n len) := by unfold Fits; infer_instance

namespace Demo

/-- Two responses of length two. -/
def a : Impulses Int := ⟨2, [[1, 2], [3, 4]]⟩
/-- One response of length one. -/
def b : Impulses Int := ⟨1, [[5]]⟩

/-- Two files `a` and `b`. -/
def disk : Disk Int
  | ['a'] => .audio a
  | ['b'] => .audio b
  | ['d', 'i', 'r'] => .unreadable
  | _ => .missing

theorem a_ok : a.Ok := ⟨by decide, by decide⟩
theorem b_ok : b.Ok := ⟨by decide, by decide⟩

theorem loaded : Loaded disk [['a'], ['b']] [a, b] := .cons ⟨rfl, a_ok⟩ (.cons ⟨rfl, b_ok⟩ .nil)

theorem wa : Written ['a'] ['a'] := ⟨⟨[], [], rfl, by simp, by simp⟩, by decide, by decide, by decide, by decide⟩
theorem wb : Written ['b'] [' ', '"', 'b', '"'] :=
  ⟨⟨[' ', '"'], ['"'], rfl, by simp, by simp⟩, by decide, by decide, by decide, by decide⟩

/-- `a, "b"` -/
theorem list : ListOf [['a'], ['b']] "a, \"b\"".toList := .cons _ _ _ _ wa (.one _ _ wb)

/-- Sorting by insertion, as an instance of `std::sort`. -/
def insertion (starts : List Nat) : List Nat :=
  (List.range starts.length).insertionSort fun a b => starts.getD a 0 ≤ starts.getD b 0

def sort : StdSort where
  order := insertion
  perm starts := List.perm_insertionSort _ _
  sorted starts := by
    have : IsTrans Nat fun a b => starts.getD a 0 ≤ starts.getD b 0 := ⟨fun a b c h1 h2 => Nat.le_trans h1 h2⟩
    have : Std.Total fun a b : Nat => starts.getD a 0 ≤ starts.getD b 0 := ⟨fun a b => Nat.le_total _ _⟩
    refine (List.pairwise_insertionSort (fun a b => starts.getD a 0 ≤ starts.getD b 0) _).imp ?_
    intro a b h
    exact Nat.not_lt.2 h

end Demo

/-! ### The list of names -/

/-- A comma-separated list of file names is read as these names, without the quotation marks and spaces around them. -/
theorem names_read (names : List (List Char)) (text : List Char) (h : ListOf names text) : stringListToVec text = names :=
  names_of_list names text h

example : stringListToVec "a, \"b\"".toList = [['a'], ['b']] := names_read _ _ Demo.list

/-! ### The matrix -/

/-- Reduction of the function for readable files. -/
theorem init_reduced {K : Type} [Zero K] (S : StdSort) (disk : Disk K) (names : List (List Char)) (text : List Char)
    (contents : List (Impulses K)) (maxLength maxEntries : Option Nat) (offsets : List Nat)
    (hl : ListOf names text) (hd : Loaded disk names contents) (ho : offsets = [] ∨ offsets.length = names.length) :
    initFilterMatrix S disk text maxLength maxEntries offsets =
      (let files := places offsets contents
       let len := maxLength.getD (longest files)
       if longest files > len then .throw .invalidArgument
       else do
         checkAll (files.map (·.1)) (files.map endOf) (S.order (files.map (·.1))).tail
         let used := (files.map endOf).getLastD 0
         let n := maxEntries.getD used
         if used > n then .throw .invalidArgument
         else do
           let m ← setFiles files (zeros n len)
           .ok ⟨len, m⟩) := by
  unfold initFilterMatrix
  rw [names_of_list names text hl]
  have h0 : names.length ≠ 0 := by
    have := (listOf_ne names text hl).2
    simpa using this
  have h1 : ¬ (offsets.length > 0 ∧ offsets.length ≠ names.length) := by
    rcases ho with rfl | ho
    · simp
    · simp [ho]
  simp only [if_neg h0, if_neg h1, gather_places disk offsets names contents hd ho]
  rfl

/-- The last file has the highest end index. -/
theorem ascending_last {K : Type} (files : List (Nat × Impulses K)) (h : Ascending files) (hne : files ≠ []) :
    (∀ x ∈ files, endOf x ≤ (files.map endOf).getLastD 0) ∧ ∃ x ∈ files, endOf x = (files.map endOf).getLastD 0 := by
  induction files with
  | nil => exact absurd rfl hne
  | cons y ys ih =>
    obtain ⟨h1, h2⟩ := List.pairwise_cons.1 h
    cases ys with
    | nil => simp [List.getLastD]
    | cons z zs =>
      obtain ⟨i1, x, hx, he⟩ := ih h2 (by simp)
      have hl : ((y :: z :: zs).map endOf).getLastD 0 = ((z :: zs).map endOf).getLastD 0 := by
        simp [List.getLastD]
      rw [hl]
      refine ⟨?_, x, by simp [hx], he⟩
      intro w hw
      simp only [List.mem_cons] at hw
      rcases hw with rfl | hw
      · have := h1 z (by simp)
        have := i1 z (by simp)
        simp only [endOf] at *
        omega
      · exact i1 w (by simpa using hw)

theorem loaded_ok {K : Type} (disk : Disk K) (names : List (List Char)) (contents : List (Impulses K))
    (hd : Loaded disk names contents) : ∀ a ∈ contents, a.Ok := by
  intro a ha
  induction hd with
  | nil => simp at ha
  | cons hn hr ih =>
    simp only [List.mem_cons] at ha
    rcases ha with rfl | ha
    · exact hn.2
    · exact ih ha

theorem loaded_facts {K : Type} (disk : Disk K) (names : List (List Char)) (contents : List (Impulses K)) (offsets : List Nat)
    (hd : Loaded disk names contents) (ho : offsets = [] ∨ offsets.length = names.length) :
    (places offsets contents).map (·.2) = contents ∧ contents.length = names.length ∧
      (∀ x ∈ places offsets contents, x.2.Ok) := by
  have hlen : names.length = contents.length := hd.length_eq
  have hc := places_contents offsets contents (by rw [← hlen]; exact ho)
  refine ⟨hc, hlen.symm, ?_⟩
  intro x hx
  have : x.2 ∈ contents := by rw [← hc]; exact List.mem_map.2 ⟨x, hx, rfl⟩
  exact loaded_ok disk names contents hd _ this

/-- Files placed in ascending order without overlap: if they fit, the matrix has the requested size, every impulse response
is at the place of its file plus the number of its channel, padded with zeros, and all other filters are zero. -/
theorem filters_placed_partial {K : Type} [Zero K] (S : StdSort) (disk : Disk K) (names : List (List Char)) (text : List Char)
    (contents : List (Impulses K)) (maxLength maxEntries : Option Nat) (offsets : List Nat) (n len : Nat)
    (hl : ListOf names text) (hd : Loaded disk names contents) (ho : offsets = [] ∨ offsets.length = names.length)
    (hasc : Ascending (places offsets contents)) (hlen : IsLength maxLength contents len)
    (hn : IsCount maxEntries (places offsets contents) n) (hfit : Fits (places offsets contents) n len) :
    ∃ m, initFilterMatrix S disk text maxLength maxEntries offsets = .ok m ∧ Holds (places offsets contents) n len m := by
  obtain ⟨hc, hcl, hok⟩ := loaded_facts disk names contents offsets hd ho
  have hne : places offsets contents ≠ [] := by
    intro h
    rw [h] at hc
    have := (listOf_ne names text hl).2
    have h0 : contents.length = 0 := by rw [← hc]; rfl
    rw [hcl] at h0
    exact this (by simpa using h0)
  generalize hF : places offsets contents = files at *
  have hlong : maxLength.getD (longest files) = len := by
    cases maxLength with
    | some l => exact hlen.symm
    | none =>
      obtain ⟨⟨a, ha, he⟩, hle⟩ := hlen
      obtain ⟨x, hx, hxe⟩ := longest_mem files hne
      have h1 : longest files ≤ len := by
        rw [← hxe]; exact hle _ (by rw [← hc]; exact List.mem_map.2 ⟨x, hx, rfl⟩)
      have h2 : len ≤ longest files := by
        rw [← hc] at ha
        obtain ⟨y, hy, rfl⟩ := List.mem_map.1 ha
        rw [← he]; exact longest_le files y hy
      simp; omega
  have hle : longest files ≤ len := by
    obtain ⟨x, hx, hxe⟩ := longest_mem files hne
    rw [← hxe]; exact (hfit x hx).1
  obtain ⟨hu1, y, hy, hye⟩ := ascending_last files hasc hne
  have hcount : maxEntries.getD ((files.map endOf).getLastD 0) = n := by
    cases maxEntries with
    | some k => exact hn.symm
    | none =>
      obtain ⟨⟨x, hx, he⟩, hall⟩ := hn
      have h1 := hu1 x hx
      have h2 := hall y hy
      simp only [endOf] at h1 hye
      rw [Option.getD_none]; omega
  have hused : (files.map endOf).getLastD 0 ≤ n := by
    rw [← hye]; exact (hfit y hy).2
  obtain ⟨m, he, hml, hmf, hmp⟩ := setFiles_ok files (zeros n len : List (List K)) (fun x hx => by
    simpa [zeros, endOf] using (hfit x hx).2)
  refine ⟨⟨len, m⟩, ?_, ?_⟩
  · rw [init_reduced S disk names text contents maxLength maxEntries offsets hl hd ho]
    simp only [hF, hlong, hcount, ascending_check S files (ascending_starts files hok hasc), Outcome.ok_bind,
      if_neg (Nat.not_lt.2 hle), if_neg (Nat.not_lt.2 hused), he]
  · refine ⟨rfl, by simpa [zeros] using hml, ?_, ?_⟩
    · intro x hx i r hi
      have hil : i < x.2.rows.length := (List.getElem?_eq_some_iff.1 hi).1
      have := (hfit x hx).2
      rw [hmp hasc x hx i r _ hi (zeros_get n len _ (by omega)), overlay_zeros]
    · intro q hq hfree
      rw [hmf q hfree, zeros_get n len q hq]

example : ∃ m, initFilterMatrix Demo.sort Demo.disk "a, \"b\"".toList none (some 6) [1, 4] = .ok m ∧
    Holds [(1, Demo.a), (4, Demo.b)] 6 2 m :=
  filters_placed_partial Demo.sort Demo.disk _ _ [Demo.a, Demo.b] none (some 6) [1, 4] 6 2 Demo.list Demo.loaded (Or.inr rfl)
    (by decide) ⟨⟨Demo.a, by simp, rfl⟩, by decide⟩ rfl (by decide)

/-- What a matrix holds determines it. -/
theorem holds_unique {K : Type} [Zero K] (files : List (Nat × Impulses K)) (n len : Nat) (m m' : Filters K)
    (h : Holds files n len m) (h' : Holds files n len m') : m = m' := by
  have hr : m.rows = m'.rows := by
    apply List.ext_getElem?
    intro q
    by_cases hq : q < n
    · by_cases hc : ∃ x ∈ files, x.1 ≤ q ∧ q < x.1 + x.2.rows.length
      · obtain ⟨x, hx, h1, h2⟩ := hc
        have hi : q - x.1 < x.2.rows.length := by omega
        have e1 := h.placed x hx (q - x.1) _ (List.getElem?_eq_getElem hi)
        have e2 := h'.placed x hx (q - x.1) _ (List.getElem?_eq_getElem hi)
        rw [show x.1 + (q - x.1) = q by omega] at e1 e2
        rw [e1, e2]
      · push Not at hc
        rw [h.free q hq (fun x hx hh => absurd hh.2 (by have := hc x hx hh.1; omega)),
          h'.free q hq (fun x hx hh => absurd hh.2 (by have := hc x hx hh.1; omega))]
    · have h1 := h.count
      have h2 := h'.count
      rw [List.getElem?_eq_none (by omega), List.getElem?_eq_none (by omega)]
  have hl : m.length = m'.length := h.length.trans h'.length.symm
  cases m; cases m'; simp_all

example : Holds [(1, Demo.a), (4, Demo.b)] 6 2 ⟨2, [[0, 0], [1, 2], [3, 4], [0, 0], [5, 0], [0, 0]]⟩ :=
  ⟨rfl, rfl, (by
    intro x hx i r hi
    simp only [List.mem_cons, List.not_mem_nil, or_false] at hx
    rcases hx with rfl | rfl
    · match i, hi with
      | 0, hi => cases hi; rfl
      | 1, hi => cases hi; rfl
      | i + 2, hi => simp [Demo.a] at hi
    · match i, hi with
      | 0, hi => cases hi; rfl
      | i + 1, hi => simp [Demo.b] at hi), (by decide)⟩

/-- Without offsets, the files are stored one after the other: no condition on their order is needed. -/
theorem filters_consecutive {K : Type} [Zero K] (S : StdSort) (disk : Disk K) (names : List (List Char)) (text : List Char)
    (contents : List (Impulses K)) (maxLength maxEntries : Option Nat) (n len : Nat)
    (hl : ListOf names text) (hd : Loaded disk names contents) (hlen : IsLength maxLength contents len)
    (hn : IsCount maxEntries (consecutive 0 contents) n) (hfit : Fits (consecutive 0 contents) n len) :
    ∃ m, initFilterMatrix S disk text maxLength maxEntries [] = .ok m ∧ Holds (consecutive 0 contents) n len m := by
  have := filters_placed_partial S disk names text contents maxLength maxEntries [] n len hl hd (Or.inl rfl)
  simp only [places, if_true] at this
  exact this (consecutive_ascending contents 0) hlen hn hfit

example : ∃ m, initFilterMatrix Demo.sort Demo.disk "a, \"b\"".toList (some 4) none [] = .ok m ∧
    Holds [(0, Demo.a), (2, Demo.b)] 3 4 m :=
  filters_consecutive Demo.sort Demo.disk _ _ [Demo.a, Demo.b] (some 4) none 3 4 Demo.list Demo.loaded rfl
    ⟨⟨(2, Demo.b), by simp [consecutive, Demo.a], rfl⟩, by decide⟩ (by decide)

/-- Files that do not fit into the requested size are rejected. -/
theorem filters_too_large {K : Type} [Zero K] (S : StdSort) (disk : Disk K) (names : List (List Char)) (text : List Char)
    (contents : List (Impulses K)) (maxLength maxEntries : Option Nat) (offsets : List Nat) (n len : Nat)
    (hl : ListOf names text) (hd : Loaded disk names contents) (ho : offsets = [] ∨ offsets.length = names.length)
    (hasc : Ascending (places offsets contents)) (hlen : IsLength maxLength contents len)
    (hn : IsCount maxEntries (places offsets contents) n) (hfit : ¬ Fits (places offsets contents) n len) :
    initFilterMatrix S disk text maxLength maxEntries offsets = .throw .invalidArgument := by
  obtain ⟨hc, hcl, hok⟩ := loaded_facts disk names contents offsets hd ho
  rw [init_reduced S disk names text contents maxLength maxEntries offsets hl hd ho]
  generalize hF : places offsets contents = files at *
  have hne : files ≠ [] := by rintro rfl; exact hfit (by intro x hx; simp at hx)
  simp only []
  split
  · rfl
  · rename_i h1
    rw [ascending_check S files (ascending_starts files hok hasc), Outcome.ok_bind]
    obtain ⟨hu1, y, hy, hye⟩ := ascending_last files hasc hne
    rw [if_pos]
    by_contra h2
    apply hfit
    intro x hx
    constructor
    · have h3 := longest_le files x hx
      cases maxLength with
      | some l => simp only [IsLength] at hlen; simp at h1; omega
      | none => exact hlen.2 _ (by rw [← hc]; exact List.mem_map.2 ⟨x, hx, rfl⟩)
    · have h3 := hu1 x hx
      cases maxEntries with
      | some k => simp only [IsCount] at hn; simp only [Option.getD_some] at h2; simp only [endOf] at h3; omega
      | none => exact hn.2 x hx

example : initFilterMatrix Demo.sort Demo.disk "a, \"b\"".toList none (some 4) [1, 4] = .throw .invalidArgument :=
  filters_too_large Demo.sort Demo.disk _ _ [Demo.a, Demo.b] none (some 4) [1, 4] 4 2 Demo.list Demo.loaded (Or.inr rfl)
    (by decide) ⟨⟨Demo.a, by simp, rfl⟩, by decide⟩ rfl (by decide)

example : initFilterMatrix Demo.sort Demo.disk "a, \"b\"".toList (some 1) none [] = .throw .invalidArgument :=
  filters_too_large Demo.sort Demo.disk _ _ [Demo.a, Demo.b] (some 1) none [] 3 1 Demo.list Demo.loaded (Or.inl rfl)
    (by decide) rfl ⟨⟨(2, Demo.b), by simp [places, consecutive, Demo.a], rfl⟩, by decide⟩ (by decide)

/-- A file that does not exist or cannot be read is reported, whatever the other arguments. -/
theorem unreadable_file_rejected {K : Type} [Zero K] (S : StdSort) (disk : Disk K) (names : List (List Char)) (text : List Char)
    (maxLength maxEntries : Option Nat) (offsets : List Nat) (hl : ListOf names text)
    (h : ∃ n ∈ names, disk n = .missing ∨ disk n = .unreadable) :
    initFilterMatrix S disk text maxLength maxEntries offsets = .throw .invalidArgument := by
  have hg : ∀ ns : List (List Char), (∃ n ∈ ns, disk n = .missing ∨ disk n = .unreadable) →
      ∀ i e, gather disk offsets i e ns = .throw .invalidArgument := by
    intro ns
    induction ns with
    | nil => rintro ⟨n, hn, _⟩; simp at hn
    | cons n ns ih =>
      rintro ⟨n', hn', hb⟩ i e
      rw [gather]
      cases hdn : disk n with
      | missing => rfl
      | unreadable => rfl
      | audio a =>
        simp only [List.mem_cons] at hn'
        rcases hn' with rfl | hn'
        · rw [hdn] at hb; simp at hb
        · simp only [ih ⟨n', hn', hb⟩, Outcome.throw_bind]
  unfold initFilterMatrix
  rw [names_of_list names text hl]
  have h0 : names.length ≠ 0 := by
    have := (listOf_ne names text hl).2
    simpa using this
  simp only [if_neg h0, hg names h, Outcome.throw_bind]
  split <;> rfl

example : initFilterMatrix Demo.sort Demo.disk "a, \"b\"".toList (K := Int) none none [] ≠ .throw .invalidArgument := by decide +kernel

example : initFilterMatrix Demo.sort (fun n => if n = ['a'] then .audio Demo.a else .missing) "a, \"b\"".toList none none [] =
    .throw .invalidArgument :=
  unreadable_file_rejected _ _ _ _ _ _ _ Demo.list ⟨['b'], by simp, Or.inl rfl⟩

/-- A wrong number of offsets is rejected. -/
theorem wrong_number_of_offsets_rejected {K : Type} [Zero K] (S : StdSort) (disk : Disk K) (names : List (List Char))
    (text : List Char) (maxLength maxEntries : Option Nat) (offsets : List Nat) (hl : ListOf names text)
    (ho : offsets ≠ []) (hn : offsets.length ≠ names.length) :
    initFilterMatrix S disk text maxLength maxEntries offsets = .throw .invalidArgument := by
  unfold initFilterMatrix
  rw [names_of_list names text hl]
  have : 0 < offsets.length := List.length_pos_iff.2 ho
  simp [this, hn]

example : initFilterMatrix Demo.sort Demo.disk "a, \"b\"".toList none none [1] = .throw .invalidArgument :=
  wrong_number_of_offsets_rejected _ _ _ _ _ _ _ Demo.list (by decide) (by decide)

/-- Without files, the matrix is zero and has the requested size; both sizes must be given. -/
theorem no_files {K : Type} [Zero K] (S : StdSort) (disk : Disk K) (maxLength maxEntries : Option Nat) :
    (∀ len n, maxLength = some len → maxEntries = some n →
      ∃ m, initFilterMatrix S disk [] maxLength maxEntries [] = .ok m ∧ Holds [] n len m) ∧
    (maxLength = none ∨ maxEntries = none → initFilterMatrix S disk [] maxLength maxEntries [] = .throw .invalidArgument) := by
  refine ⟨?_, ?_⟩
  · rintro len n rfl rfl
    refine ⟨⟨len, zeros n len⟩, rfl, rfl, by simp [zeros], by intro x hx; simp at hx, ?_⟩
    intro q hq _
    exact zeros_get n len q hq
  · rintro (rfl | rfl)
    · cases maxEntries <;> rfl
    · cases maxLength <;> rfl

/-! ### Where the code does not do what it documents -/

/-- Overlapping ranges are not detected: files with ascending start indices are accepted, whatever their sizes, as long as
the last one ends last. -/
theorem overlap_not_detected {K : Type} [Zero K] (S : StdSort) (disk : Disk K) (names : List (List Char)) (text : List Char)
    (contents : List (Impulses K)) (offsets : List Nat) (hl : ListOf names text) (hd : Loaded disk names contents)
    (ho : offsets.length = names.length) (hasc : offsets.Pairwise (· < ·))
    (hlast : ∀ x ∈ offsets.zip contents, x.1 + x.2.rows.length ≤ ((offsets.zip contents).map endOf).getLastD 0) :
    ∃ m, initFilterMatrix S disk text none none offsets = .ok m := by
  obtain ⟨hc, hcl, hok⟩ := loaded_facts disk names contents offsets hd (Or.inr ho)
  have h0 : offsets ≠ [] := by
    have := (listOf_ne names text hl).2
    intro h
    rw [h] at ho
    exact this (by simpa using ho.symm)
  rw [init_reduced S disk names text contents none none offsets hl hd (Or.inr ho)]
  have hp : places offsets contents = offsets.zip contents := by simp [places, h0]
  rw [hp]
  have hfst : (offsets.zip contents).map (·.1) = offsets := List.map_fst_zip (by omega)
  have hasc' : (offsets.zip contents).Pairwise fun x y => x.1 < y.1 := by
    rw [← hfst] at hasc
    exact List.pairwise_map.1 hasc
  obtain ⟨m, he, _⟩ := setFiles_ok (offsets.zip contents)
    (zeros (((offsets.zip contents).map endOf).getLastD 0) (longest (offsets.zip contents)) : List (List K))
    (fun x hx => by simpa [zeros, endOf] using hlast x hx)
  refine ⟨⟨longest (offsets.zip contents), m⟩, ?_⟩
  have hck := ascending_check S _ hasc'
  dsimp only
  rw [hck]
  simp only [Outcome.ok_bind, Option.getD_none, gt_iff_lt, Nat.lt_irrefl, if_false]
  rw [he]; rfl

example : ∃ m, initFilterMatrix Demo.sort Demo.disk "a, \"b\"".toList none none [0, 1] = .ok m :=
  overlap_not_detected _ _ _ _ _ _ Demo.list Demo.loaded rfl (by decide) (by decide)

/-- The second response of file `a` (index 1) is overwritten in part by file `b`. -/
theorem Demo.overlap_mixes_responses :
    initFilterMatrix Demo.sort Demo.disk "a, \"b\"".toList none none [0, 1] = .ok ⟨2, [[1, 2], [5, 4]]⟩ := by decide +kernel

/-- If the first file does not have the lowest start index, the call never succeeds: it reads outside a vector unless it
throws before. -/
theorem first_file_must_be_lowest {K : Type} [Zero K] (S : StdSort) (disk : Disk K) (names : List (List Char)) (text : List Char)
    (contents : List (Impulses K)) (maxLength maxEntries : Option Nat) (offsets : List Nat) (hl : ListOf names text)
    (hd : Loaded disk names contents) (ho : offsets.length = names.length)
    (hlow : ∃ o ∈ offsets, o < offsets.getD 0 0) :
    ∀ m, initFilterMatrix S disk text maxLength maxEntries offsets ≠ .ok m := by
  obtain ⟨hc, hcl, hok⟩ := loaded_facts disk names contents offsets hd (Or.inr ho)
  obtain ⟨o, hom, holt⟩ := hlow
  have h0 : offsets ≠ [] := by rintro rfl; simp at hom
  intro m
  rw [init_reduced S disk names text contents maxLength maxEntries offsets hl hd (Or.inr ho)]
  have hp : places offsets contents = offsets.zip contents := by simp [places, h0]
  have hfst : (offsets.zip contents).map (·.1) = offsets := List.map_fst_zip (by omega)
  rw [hp]
  simp only [hfst]
  have hz : 0 ∈ (S.order offsets).tail := by
    have hperm := S.perm offsets
    have hs := S.sorted offsets
    have hmem : 0 ∈ S.order offsets := hperm.mem_iff.2 (by simpa using List.length_pos_iff.2 h0)
    obtain ⟨j, hj, hje⟩ := List.getElem_of_mem hom
    have hjm : j ∈ S.order offsets := hperm.mem_iff.2 (by simpa using hj)
    cases hord : S.order offsets with
    | nil => rw [hord] at hmem; simp at hmem
    | cons k ks =>
      rw [hord] at hmem hjm hs
      simp only [List.mem_cons] at hmem hjm
      rcases hmem with rfl | hmem
      · rcases hjm with rfl | hjm
        · have : offsets.getD 0 0 = o := by simp [List.getD, hj, hje]
          omega
        · have := (List.pairwise_cons.1 hs).1 j hjm
          exact absurd (by simpa [List.getD, hj, hje] using holt) this
      · simpa using hmem
  have hne := checkAll_zero offsets ((offsets.zip contents).map endOf) _ hz
  split
  · simp
  · cases hch : checkAll offsets ((offsets.zip contents).map endOf) (S.order offsets).tail with
    | ok u => exact absurd hch hne
    | throw e => simp
    | ub => simp

example : ∀ m, initFilterMatrix Demo.sort Demo.disk "a, \"b\"".toList none none [1, 0] ≠ .ok m :=
  first_file_must_be_lowest _ _ _ _ _ _ _ _ Demo.list Demo.loaded rfl ⟨0, by decide⟩

/-- Two files at the disjoint places 1-2 and 0: the vector of start indices is accessed outside its bounds. -/
theorem Demo.disjoint_files_undefined :
    initFilterMatrix Demo.sort Demo.disk "a, \"b\"".toList none none [1, 0] = .ub := by decide +kernel

/-- Three files at the disjoint places 0, 9 and 5 are rejected as overlapping. -/
theorem Demo.disjoint_files_rejected :
    initFilterMatrix Demo.sort Demo.disk "b,b,b".toList none none [0, 9, 5] = .throw .invalidArgument := by decide +kernel

/-- Three files at the disjoint places 0, 2 and 1: the matrix gets two rows, and the second file is written outside it. -/
theorem Demo.disjoint_files_written_outside :
    initFilterMatrix Demo.sort Demo.disk "b,b,b".toList none none [0, 2, 1] = .ub := by decide +kernel

/-- A blank list is not treated as "no files": the empty name is looked up. -/
theorem Demo.blank_list_is_a_file :
    initFilterMatrix Demo.sort Demo.disk " ".toList (some 3) (some 2) [] = .throw .invalidArgument := by decide +kernel

end Visr.FilterMatrix
