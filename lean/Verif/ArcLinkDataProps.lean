import Verif.ArcLinkDataLemmas

/-!
# C171: imports that load other files keep their records

Wanted: an import that reads only the records it has noted (`Noted`) is completed, whatever other files it loads on the way, and leaves nothing behind.
-/

namespace Verif.FLinkData

/-- **C171, partial.** Files that do not refer to each other in a circle and that fetch no other file between noting and reading a record are all loaded,
from every state of the process; afterwards there are no records. Missing: `fetched_between_violated`, `external_skin_violated`, `circle_violated`. -/
theorem imports_completed_partial (files : Nat → File) (hg : ∀ f, Guarded f (files f).steps) (rank : Nat → Nat) (hr : ∀ f g, Step.fetch g ∈ (files f).steps → rank g < rank f)
    (f : Nat) (s : St) : ∀ n, rank f < n → ∃ t b, importFile files n f s = .ok t b ∧ t.data = [] ∧ s.count ≤ t.count := by
  have main : ∀ n f s, rank f < n → ∃ t b, importFile files n f s = .ok t b := by
    intro n
    induction n with
    | zero => intro f s h; exact absurd h (Nat.not_lt_zero _)
    | succ n ih =>
      intro f s h
      have hs : ∀ l, (files f).steps = l → ∃ u, steps (importFile files n) f l (enter s) = .ok u true := by
        intro l e
        refine steps_guarded l [] _ (by rw [List.nil_append, ← e]; exact hg f) (fun a o b e => by cases a <;> cases e) ?_
        intro g m s
        exact ih g s (by have := hr f g (by rw [e]; exact m); omega)
      unfold importFile
      cases e : files f with
      | broken => exact ⟨_, _, rfl⟩
      | foreign => exact ⟨_, _, rfl⟩
      | cancelled l => obtain ⟨u, hu⟩ := hs l (by rw [e]; rfl); simp only [hu]; exact ⟨_, _, rfl⟩
      | whole st l => obtain ⟨u, hu⟩ := hs l (by rw [e]; rfl); simp only [hu]; exact ⟨_, _, rfl⟩
  intro n h
  obtain ⟨t, b, e⟩ := main n f s h
  exact ⟨t, b, e, import_cleared e, import_count_le files n f s t b e⟩

/-- **C171, partial.** Between imports there are no records and the count is zero, after every history of imports of files that are COLLADA or no XML
and are not cancelled. Missing: `count_raised_violated`. -/
theorem nothing_left_partial (files : Nat → File) (hf : ∀ f, files f = .broken ∨ ∃ b l, files f = .whole b l) (s : St) (h : Between files s) : s.data = [] ∧ s.count = 0 ∧ s.open_ = [] := by
  induction h with
  | start => exact ⟨rfl, rfl, rfl⟩
  | @file s t b n f h e ih =>
    refine ⟨import_cleared e, by rw [← import_count_eq files hf n f _ _ _ e]; exact ih.2.1, ?_⟩
    have := import_keys files n f _ _ _ e
    rw [ih.2.2] at this
    cases ht : t.open_ with
    | nil => rfl
    | cons a r => rw [ht] at this; cases this
  | @object s f notes h ih =>
    refine ⟨?_, ih.2.1, ih.2.2⟩
    show (if s.count = 0 then _ else _) = _
    rw [if_pos ih.2.1]

/-- **C171, violated.** An import that fetches another file after noting a record and reads the record afterwards is never completed: the import of
the other file has cleared the records of all documents. -/
theorem fetched_between_violated (files : Nat → File) (f g o : Nat) (st : Bool) (pre mid post : List Step) (hf : files f = .whole st (pre ++ .fetch g :: (mid ++ .need f o :: post)))
    (hp : ∀ x ∈ pre, x ≠ .mention g ∧ x ≠ .fetch g) (hm : Step.note o ∉ mid) : ∀ n s t b, importFile files n f s ≠ .ok t b := by
  intro n s t b h
  cases n with
  | zero => cases h
  | succ n =>
    rw [importFile, hf] at h
    simp only at h
    split at h
    · rename_i u b' e
      obtain ⟨v, _, e1, e2⟩ := steps_prefix e
      have ht := steps_top (import_keys files n) g pre hp (enter s) (by show g ∉ []; simp) e1
      simp only [steps] at e2
      rw [no_target g v ht, if_neg (by simp)] at e2
      split at e2
      · rename_i w ok e3
        have hw := import_cleared e3
        obtain ⟨x, _, e4, e5⟩ := steps_prefix e2
        have := steps_absent (me := f) (fun f s t st h => import_cleared h) (f, o) mid (fun _ => hm) _ (by cases ok <;> (show (f, o) ∉ w.data; rw [hw]; simp)) e4
        rw [steps, if_neg this] at e5
        cases e5
      · rename_i o ho
        exact ho _ _ e2
    · rename_i o ho
      exact ho _ _ h

/-- **C171, violated.** An import that reads a record of another document, as the linking of an instance of a skin of another file does, is never
completed unless it is itself part of another import. -/
theorem external_skin_violated (files : Nat → File) (f g o : Nat) (hg : g ≠ f) (st : Bool) (pre post : List Step) (hf : files f = .whole st (pre ++ .need g o :: post)) :
    ∀ n s t b, s.count = 0 → importFile files n f s ≠ .ok t b := by
  intro n s t b hc h
  cases n with
  | zero => cases h
  | succ n =>
    rw [importFile, hf] at h
    simp only at h
    split at h
    · rename_i u b' e
      obtain ⟨v, _, e1, e2⟩ := steps_prefix e
      have := steps_absent (me := f) (fun f s t st h => import_cleared h) (g, o) pre (fun e => absurd e hg) (enter s)
        (by show (g, o) ∉ (if s.count = 0 then [] else s.data); rw [if_pos hc]; simp) e1
      rw [steps, if_neg this] at e2
      cases e2
    · rename_i o ho
      exact ho _ _ h

/-- **C171, violated.** Files of a set that each fetch another file of the set before anything else is fetched are loaded without end: a document is
registered only when its import is over. -/
theorem circle_violated (files : Nat → File) (S : Nat → Prop) (hS : ∀ f, S f → ∃ (st : Bool) (pre : List Nat) (g : Nat) (post : List Step), files f = .whole st (pre.map .note ++ .fetch g :: post) ∧ S g) :
    ∀ n f s, S f → importFile files n f s = .fuel := by
  intro n
  induction n with
  | zero => intro f s _; rfl
  | succ n ih =>
    intro f s h
    obtain ⟨st, pre, g, post, e, hg⟩ := hS f h
    have hn : ∀ (pre : List Nat) (s : St), ∃ d, steps (importFile files n) f (pre.map .note) s = .ok { s with data := d } true := by
      intro pre
      induction pre with
      | nil => intro s; exact ⟨s.data, rfl⟩
      | cons o pre ih =>
        intro s
        obtain ⟨d, hd⟩ := ih { s with data := (f, o) :: s.data }
        exact ⟨d, by rw [List.map_cons, steps]; exact hd⟩
    obtain ⟨d, hd⟩ := hn pre (enter s)
    have : steps (importFile files n) f (pre.map .note ++ .fetch g :: post) (enter s) = .fuel := by
      rw [steps_append, hd]
      simp only [steps]
      rw [no_target g _ (by show g ∉ []; simp), if_neg (by simp), ih g _ hg]
    rw [importFile, e]
    simp only [this]

/-- **C171, violated.** A file with another root element, or an import that is cancelled, raises the count for ever: from then on the records of
imported objects stay. -/
theorem count_raised_violated (files : Nat → File) (f : Nat) (s : St) (h : Between files s) (hf : files f = .foreign ∨ files f = .cancelled []) :
    ∃ t, Between files t ∧ t.count = s.count + 1 ∧ (∀ n g u b, importFile files n g t = .ok u b → u.count ≠ 0) ∧
      ∀ g o, Between files (importObject g [o] t) ∧ (g, o) ∈ (importObject g [o] t).data := by
  have e : importFile files 1 f s = .ok (leave (enter s)) false := by
    rcases hf with hf | hf <;> (rw [importFile, hf]; try rfl)
  refine ⟨leave (enter s), .file f h e, rfl, ?_, ?_⟩
  · intro n g u b e
    have := import_count_le files n g _ _ _ e
    have h1 : (leave (enter s)).count = s.count + 1 := rfl
    omega
  · intro g o
    refine ⟨.object g [o] (.file f h e), ?_⟩
    show (g, o) ∈ (if s.count + 1 = 0 then [] else [(g, o)])
    rw [if_neg (by omega)]
    exact List.mem_cons_self ..

/-- A scene (file 0) with a texture and a geometry of another file (file 1), which has textures of its own. -/
def sampleFiles : Nat → File
  | 0 => .whole true [.fetch 1, .note 1, .note 2, .mention 2, .need 0 2, .need 0 1]
  | 1 => .whole true [.note 1, .need 1 1]
  | _ => .broken

/-- The same scene with its effects before the scenes, as files are. -/
def lateFiles : Nat → File
  | 0 => .whole true [.note 1, .note 2, .fetch 1, .need 0 2, .need 0 1]
  | 1 => .whole true [.note 1, .need 1 1]
  | _ => .broken

/-- Two files that refer to each other. -/
def circleFiles : Nat → File
  | 0 => .whole true [.note 1, .fetch 1, .need 0 1]
  | 1 => .whole true [.fetch 0]
  | _ => .broken

example : importFile sampleFiles 5 0 start = .ok start true := by decide +kernel

example : ∀ f, Guarded f (sampleFiles f).steps := by
  intro f
  match f with
  | 0 =>
    intro pre f o post e
    match pre, e with
    | [_, _, _, _], e =>
      simp only [sampleFiles, File.steps, List.cons_append, List.nil_append, List.cons.injEq, Step.need.injEq] at e
      obtain ⟨rfl, rfl, rfl, rfl, ⟨rfl, rfl⟩, rfl⟩ := e
      exact ⟨rfl, [.fetch 1, .note 1], [.mention 2], rfl, by simp⟩
    | [_, _, _, _, _], e =>
      simp only [sampleFiles, File.steps, List.cons_append, List.nil_append, List.cons.injEq, Step.need.injEq] at e
      obtain ⟨rfl, rfl, rfl, rfl, rfl, ⟨rfl, rfl⟩, rfl⟩ := e
      exact ⟨rfl, [.fetch 1], [.note 2, .mention 2, .need 0 2], rfl, by simp⟩
    | [], e => simp [sampleFiles, File.steps] at e
    | [_], e => simp [sampleFiles, File.steps] at e
    | [_, _], e => simp [sampleFiles, File.steps] at e
    | [_, _, _], e => simp [sampleFiles, File.steps] at e
    | _ :: _ :: _ :: _ :: _ :: _ :: _, e => simp [sampleFiles, File.steps] at e
  | 1 =>
    intro pre f o post e
    match pre, e with
    | [_], e =>
      simp only [sampleFiles, File.steps, List.cons_append, List.nil_append, List.cons.injEq, Step.need.injEq] at e
      obtain ⟨rfl, ⟨rfl, rfl⟩, rfl⟩ := e
      exact ⟨rfl, [], [], rfl, by simp⟩
    | [], e => simp [sampleFiles, File.steps] at e
    | _ :: _ :: _, e => simp [sampleFiles, File.steps] at e
  | n + 2 =>
    intro pre f o post e
    cases pre <;> cases e

example : ∀ f g, Step.fetch g ∈ (sampleFiles f).steps → (fun f => 2 - f) g < (fun f => 2 - f) f := by
  intro f g h
  match f with
  | 0 => simp [sampleFiles, File.steps] at h; subst h; decide
  | 1 => simp [sampleFiles, File.steps] at h
  | n + 2 => cases h

example : importFile lateFiles 5 0 start = .ub := by decide +kernel

example : Noted 0 (lateFiles 0).steps := by
  intro pre f o post e
  match pre, e with
  | [_, _, _], e =>
    simp only [lateFiles, File.steps, List.cons_append, List.nil_append, List.cons.injEq, Step.need.injEq] at e
    obtain ⟨rfl, rfl, rfl, ⟨rfl, rfl⟩, rfl⟩ := e
    exact ⟨rfl, by simp⟩
  | [_, _, _, _], e =>
    simp only [lateFiles, File.steps, List.cons_append, List.nil_append, List.cons.injEq, Step.need.injEq] at e
    obtain ⟨rfl, rfl, rfl, rfl, ⟨rfl, rfl⟩, rfl⟩ := e
    exact ⟨rfl, by simp⟩
  | [], e => simp [lateFiles, File.steps] at e
  | [_], e => simp [lateFiles, File.steps] at e
  | [_, _], e => simp [lateFiles, File.steps] at e
  | _ :: _ :: _ :: _ :: _ :: _, e => simp [lateFiles, File.steps] at e

example : ∀ n b, importFile lateFiles n 0 start ≠ .ok start b := fun n b => fetched_between_violated lateFiles 0 1 2 true [.note 1, .note 2] [] [.need 0 1] rfl (by decide) (by decide) n start start b

example : ∀ n s, importFile circleFiles n 0 s = .fuel := fun n s =>
  circle_violated circleFiles (fun f => f = 0 ∨ f = 1) (by
    rintro f (rfl | rfl)
    · exact ⟨true, [1], 1, [.need 0 1], rfl, .inr rfl⟩
    · exact ⟨true, [], 0, [], rfl, .inl rfl⟩) n 0 s (.inl rfl)

end Verif.FLinkData
