import Verif.Allocator.Lemmas

/-!
# Object channel allocation is injective and stable (C08)
-/

namespace Visr.Allocator
open Visr

/-- The history of `setObjects` calls made on a fresh allocator. -/
def after (n : Nat) (history : List (List Nat)) : State := final setObjects (State.init n) history

theorem inv_after (n : Nat) (history : List (List Nat)) (hh : ∀ ids ∈ history, ids.Nodup) :
    Inv (after n history) ∧ (after n history).maxChannels = n := by
  unfold after
  suffices h : ∀ s, Inv s → s.maxChannels = n →
      Inv (final setObjects s history) ∧ (final setObjects s history).maxChannels = n from h _ (inv_init n) rfl
  induction history with
  | nil => intro s h1 h2; exact ⟨h1, h2⟩
  | cons ids hist ih =>
    intro s h1 h2
    rw [final_cons]
    refine ih (fun x hx => hh x (by simp [hx])) _ (inv_step s ids h1 (hh ids (by simp))) ?_
    unfold setObjects
    split
    · exact h2
    · exact h2

/-- C08: after any history of `setObjects` calls with duplicate-free ids (some of which may have been refused), a call
with duplicate-free, valid ids throws exactly if there are more ids than channels, and then changes nothing. If it
succeeds: every id is the object of exactly one channel, and that channel is below `maxChannels`; no channel has any other
object; the number of used channels is the number of ids; and every object that was present before the call and is still
present keeps its channel. -/
theorem allocator_injective_and_stable (n : Nat) (history : List (List Nat)) (hh : ∀ ids ∈ history, ids.Nodup)
    (ids : List Nat) (hn : ids.Nodup) (hv : cInvalidObjectId ∉ ids) :
    let s := after n history
    let r := setObjects s ids
    (n < ids.length → r = (s, .throw .invalidArgument)) ∧
    (ids.length ≤ n →
      r.2 = .ok () ∧
      (∀ id ∈ ids, ∃ ch, ch < n ∧ getObjectForChannel r.1 ch = id ∧ ∀ ch', getObjectForChannel r.1 ch' = id → ch' = ch) ∧
      (∀ ch, getObjectForChannel r.1 ch ∈ ids ∨ getObjectForChannel r.1 ch = cInvalidObjectId) ∧
      numberUsedChannels r.1 = ids.length ∧
      (∀ ch, getObjectForChannel s ch ∈ ids → getObjectForChannel r.1 ch = getObjectForChannel s ch)) := by
  intro s r
  obtain ⟨hinv, hmax⟩ := inv_after n history hh
  refine ⟨?_, ?_⟩
  · intro hlt
    show setObjects _ _ = _
    unfold setObjects
    rw [if_pos (by rw [hmax]; exact hlt)]
  · intro hle
    obtain ⟨h1, h2, h3, h4, h5⟩ := setObjects_spec s hinv ids hn (by rw [hmax]; exact hle)
    refine ⟨h1, ?_, ?_, ?_, ?_⟩
    · intro id hid
      obtain ⟨e, he, rfl⟩ := List.mem_map.1 ((h4 id).2 hid)
      refine ⟨e.2, ?_, getObject_of_mem _ h2 e he, ?_⟩
      · have := channel_lt _ h2 e he
        rw [h3, hmax] at this; exact this
      · intro ch' hch'
        rcases getObject_cases r.1 ch' with ⟨x, hx, hxc, hxe⟩ | ⟨hx, -⟩
        · have hx1 : x.1 = e.1 := by rw [← hxe, hch']
          have := List.inj_on_of_nodup_map (keys_nodup _ h2) hx he hx1
          rw [← hxc, this]
        · rw [hx] at hch'; rw [hch'] at hv; exact absurd hid hv
    · intro ch
      rcases getObject_cases r.1 ch with ⟨x, hx, -, hxe⟩ | ⟨hx, -⟩
      · left; rw [hxe]; exact (h4 _).1 (List.mem_map.2 ⟨x, hx, rfl⟩)
      · exact .inr hx
    · have hp : (r.1.lookup.map Prod.fst).Perm ids :=
        (List.perm_ext_iff_of_nodup (keys_nodup _ h2) hn).2 (fun k => h4 k)
      have := hp.length_eq
      rw [List.length_map] at this
      exact this
    · intro ch hch
      rcases getObject_cases s ch with ⟨x, hx, hxc, hxe⟩ | ⟨hx, -⟩
      · have := h5 x hx (by rw [← hxe]; exact hch)
        rw [hxe, ← hxc]
        exact getObject_of_mem _ h2 x this
      · rw [hx] at hch; exact absurd hch hv

/-- Non-vacuity: ids come and go, one oversized request is refused, and object 7 keeps channel 1. -/
example : let s := after 3 [[4, 7], [1, 2, 3, 4], [7, 9]]
    (∀ ids ∈ [[4, 7], [1, 2, 3, 4], [7, 9]], ids.Nodup) ∧
    getObjectForChannel s 1 = 7 ∧ getObjectForChannel s 0 = 9 ∧
    getObjectForChannel (setObjects s [7, 5, 3]).1 1 = 7 := by
  simp [after, final, run, State.init, setObjects, purge, allocate, sortIds, insertSorted, insertEntry,
    getObjectForChannel, List.range_succ]

/-- An object id outside the declared preconditions: with a duplicated id, a new allocator throws after having taken the
channel, which is lost for good: afterwards even as many distinct objects as there are channels cannot be placed, although
`setObjects` is documented to throw only for too many ids. -/
theorem allocator_duplicate_leaks_channel :
    let s := (setObjects (State.init 2) [5, 5]).1
    (setObjects (State.init 2) [5, 5]).2 = .throw .logicError ∧
    (setObjects s [5, 6]).2 = .throw .runtimeError := by
  simp [State.init, setObjects, purge, allocate, sortIds, insertSorted, insertEntry, List.range_succ]

end Visr.Allocator
