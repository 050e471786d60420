import Verif.TrackLemmas

/-! # Lemmas for the properties in TrackProps -/

namespace Verif.FTrack

/-- An object with a pointer (1) and a list (2) on it. -/
def sample : World :=
  ⟨fun o => if o = 7 then some [1, 2] else if o = 8 then some [2] else none,
   fun t => if t = 1 then some (.ptr (some 7)) else if t = 2 then some (.list [some 8, some 7]) else none⟩

theorem sample_reach : Reach sample := by
  have h1 := Reach.step (.create 7) .empty (by simp [Legal, empty]) rfl
  have h2 := Reach.step (.create 8) h1 (by simp [Legal, empty]) rfl
  have h3 := Reach.step (.newPtr 1 (some 7)) h2 (by simp [Legal, empty, Valid, Alive, Function.update]) rfl
  have h4 := Reach.step (.newList 2) h3 (by simp [Legal, empty, put, Function.update]) rfl
  have h5 := Reach.step (.pushBack 2 (some 8)) h4
    (by simp [Legal, empty, put, Function.update, Valid, Alive, held, Content.items]) rfl
  have h6 := Reach.step (w' := sample) (.pushBack 2 (some 7)) h5
    (by simp [Legal, empty, put, Function.update, Valid, Alive, held, Content.items]) (by
      simp only [run, pushBack]
      rw [getList_of (p := [some 8]) (by simp [put, Function.update])]
      simp only [Option.bind_some, sample, track, Function.update, put]
      simp
      constructor
      · funext o
        by_cases h7 : o = 7
        · simp [h7]
        · by_cases h8 : o = 8 <;> simp [h7, h8, empty]
      · funext t
        by_cases h7 : t = 1
        · simp [h7]
        · by_cases h8 : t = 2 <;> simp [h7, h8, empty])
  exact h6

end Verif.FTrack
