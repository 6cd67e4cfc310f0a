import Verif.ObjectAttr.Props

/-!
# C105: outputs of new objects
-/

namespace Visr.ObjectAttr

/-- C105, outputs: an object has no list of outputs until it has channels, whatever is called. So there is one for each
channel, as long as no call changes the number of channels. -/
theorem no_outputs_before_channels {K : Type} [Zero K] (kind : Kind) (id : Nat) (calls : List (Call K))
    (hr : ∀ c ∈ calls, ∀ n, c ≠ .resetChannels n) :
    (run (new kind id) calls).outputs = [] ∧ numberOfChannels (run (new kind id) calls) = 0 := by
  have h := outputs_match_partial (new (K := K) kind id) calls rfl hr
  have hc := channel_count kind id calls
  have he : calls.filterMap Resets = [] := by
    rw [List.filterMap_eq_nil_iff]
    intro c hc
    cases c with
    | resetChannels n => exact absurd rfl (hr _ hc n)
    | _ => rfl
  rw [he] at hc
  exact ⟨List.length_eq_zero_iff.mp (h.trans hc), hc⟩

/-- C105, outputs: each accepted call that sets all outputs leaves one list for each channel, also if there was another
number of them before. The array version keeps the lists that remain. -/
theorem outputs_adapted {K : Type} [Zero K] (o : Obj K) :
    (∀ l o', perform o (.outputs l) = .ok o' → o'.outputs.length = numberOfChannels o') ∧
    (∀ l o', perform o (.outputsArray l) = .ok o' → o'.outputs.length = numberOfChannels o' ∧
      ∀ i, i < o.outputs.length → i < numberOfChannels o → o'.outputs[i]? = o.outputs[i]?) := by
  constructor
  · intro l o' h
    simp only [perform, setOutputChannels] at h
    split_ifs at h with hl
    injection h with h
    subst h
    exact not_not.mp hl
  · intro l o' h
    simp only [perform, setOutputChannelsArray] at h
    split_ifs at h with hl
    injection h with h
    subst h
    have hl : l.length = numberOfChannels o := not_not.mp hl
    constructor
    · change (resize o.outputs l.length).length = numberOfChannels o
      rw [← hl]
      simp only [resize, List.length_append, List.length_take, List.length_replicate]
      omega
    · intro i hi hc
      have hi' : i < l.length := hl ▸ hc
      simp only [resize]
      rw [List.getElem?_append_left (by simp [hi, hi']), List.getElem?_take_of_lt hi']

/-- The array version after the number of channels was reduced. -/
example : ((run (new (K := Int) .channelObject 1) [.resetChannels 2, .outputs [["L"], ["R"]], .resetChannels 1,
    .outputsArray ["C"]]).outputs = [["L"]]) := by decide

/-- Hypotheses of `no_outputs_before_channels`: the outputs are refused. -/
example : (run (new (K := Int) .channelObject 1) [.outputs [["M-30"]], .outputsArray []]).outputs = [] :=
  (no_outputs_before_channels _ _ _ (by simp)).1

end Visr.ObjectAttr
