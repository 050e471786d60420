import Verif.ArcTreeLemmas

/-!
# Trees of animations are saved and loaded (C161)
-/

namespace Verif.FArc

open Verif.FEff (Text text)
open Verif.FConv (Ov DateTime Formats shown)
open Verif.Enum (Interpolation)

/-- **C161, partial.** What is written for a tree of animations is read back: the same tree, each animation with its common part and its own channels, wherever the animation is in the file; `treeAfter`
is the tree afterwards. Missing: the targets of the channels are added to the extra tree, which is not saved the next time (`tree_resaved_violated`); what C145 and C157 leave out, in particular ids
with the same CRC-32. -/
theorem tree_roundtrip_partial (ov : Ov) {fmt rnd} (hf : Formats fmt rnd) (now now' : DateTime) (hn : GoodDate now) (junk : APlaced → List Interpolation) (t : ATree) (h : GoodAnimTree ov rnd junk t) :
    ∃ n, writeATree ov fmt now junk t = some n ∧ n.name = text "animation" ∧ (ApartTree n → ∀ around, loadATree ov now' around n = some (treeAfter ov rnd now junk t)) :=
  tree_back ov hf now now' hn junk t h

/-- **C161, violated.** Whatever the file holds, the extra tree of an animation with a channel is transient once it is loaded: when the animation is saved again, neither its extra tree nor its note is
written. -/
theorem tree_resaved_violated (ov : Ov) (fmt : ℚ → Text) (now now' : DateTime) (junk : APlaced → List Interpolation) (around : List Node) (n : Node) (s : Ent) (mute : Bool) (cs : List AChan)
    (kids : List LTree) (h : loadATree ov now around n = some (.mk s mute cs kids)) (hn : n.name = text "animation") (hc : n.child (text "channel") ≠ none) :
    mute = true ∧ ∀ chs ks k, writeATree ov fmt now' junk (.mk s mute chs ks) = some k → k.children (text "extra") = [] := by
  have hm : mute = true := by
    obtain ⟨nm, as, t, ks⟩ := n
    unfold loadATree at h
    obtain ⟨e, -, h⟩ := Option.bind_eq_some_iff.1 h
    rw [if_neg (fun e => e hn)] at h
    obtain ⟨c, -, h⟩ := Option.bind_eq_some_iff.1 h
    obtain ⟨x, -, h⟩ := Option.bind_eq_some_iff.1 h
    obtain ⟨l, -, h⟩ := Option.map_eq_some_iff.1 h
    have hm := (LTree.mk.inj h).2.1
    rw [← hm, Bool.not_eq_true', List.isEmpty_eq_false_iff]
    intro he
    refine hc ?_
    unfold Node.child
    unfold Node.children at he
    rw [List.filter_eq_nil_iff] at he
    exact List.find?_eq_none.2 he
  refine ⟨hm, fun chs ks k hk => ?_⟩
  subst hm
  unfold writeATree at hk
  obtain ⟨es, he, hk⟩ := Option.bind_eq_some_iff.1 hk
  obtain ⟨js, hj, hk⟩ := Option.bind_eq_some_iff.1 hk
  unfold writeAnimEnt at hk
  obtain ⟨a, ha, hk⟩ := Option.bind_eq_some_iff.1 hk
  obtain ⟨x, hx, rfl⟩ := Option.map_eq_some_iff.1 hk
  refine children_other fun k hm => ?_
  have hjn : ∀ (ts : List ATree) (js : List Node), writeATrees ov fmt now' junk ts = some js → ∀ k ∈ js, k.name = text "animation" := by
    intro ts
    induction ts with
    | nil => intro js h; unfold writeATrees at h; obtain rfl := Option.some.inj h; simp
    | cons t ts ih =>
      intro js h
      unfold writeATrees at h
      obtain ⟨k, hk, h⟩ := Option.bind_eq_some_iff.1 h
      obtain ⟨ks, hks, rfl⟩ := Option.map_eq_some_iff.1 h
      intro y hy
      rcases List.mem_cons.1 hy with rfl | hy
      · obtain ⟨s, m, chs, js⟩ := t
        unfold writeATree at hk
        obtain ⟨_, -, hk⟩ := Option.bind_eq_some_iff.1 hk
        obtain ⟨_, -, hk⟩ := Option.bind_eq_some_iff.1 hk
        unfold writeAnimEnt at hk
        obtain ⟨_, -, hk⟩ := Option.bind_eq_some_iff.1 hk
        obtain ⟨_, -, rfl⟩ := Option.map_eq_some_iff.1 hk
        rfl
      · exact ih ks hks y hy
  simp only [if_true, List.append_nil, List.mem_append] at hm
  rcases hm with hm | hm | hm
  · have : k.name = text "asset" := by
      unfold writeEntAsset at ha
      split at ha
      · obtain rfl := Option.some.inj ha; simp at hm
      · obtain ⟨q, hq, rfl⟩ := Option.map_eq_some_iff.1 ha
        unfold writeAsset at hq
        obtain ⟨cs, -, rfl⟩ := Option.map_eq_some_iff.1 hq
        rw [List.mem_singleton.1 hm]; rfl
    rw [this]; simp [text_inj]
  · rcases writeChannels_names he k hm with hh | hh | hh <;> rw [hh] <;> simp [text_inj]
  · rw [hjn _ _ hj k hm]; simp [text_inj]

/-! ## Examples -/

/-- A tree of two animations, the inner one with a curve and a note. -/
def sampleTree : ATree := .mk { id := text "outer" } false [] [.mk { id := text "inner", note := text "hi" } false [(text "n/t", [lineTo 1 (text ".X")])] []]

theorem newEnt_good (ov : Ov) (rnd : ℚ → ℚ) (id note : Text) (h1 : Plain id) (h2 : Plain note) : GoodEnt ov rnd { id := id, note := note } := by
  refine ⟨h1, trivial, h2, plain_nil, by simp, ⟨⟨_, rfl, rfl⟩, by simp [FExtra.newExtra], ?_⟩, ?_⟩
  · intro t ht
    simp only [FExtra.newExtra, List.mem_singleton] at ht
    subst ht
    exact ⟨plain_nil, by decide, by simp⟩
  · intro t ht _
    simp only [FExtra.newExtra, List.mem_singleton] at ht
    subst ht
    simp [NoParams]

example : GoodAnimTree .wrap (fun _ => 3 / 2) lucky sampleTree := by
  unfold sampleTree
  refine ⟨rfl, ⟨newEnt_good _ _ _ _ (hplain _ (by decide +kernel)) plain_nil, rfl, by decide +kernel, (fun _ h => nomatch h)⟩, ⟨rfl, ⟨newEnt_good _ _ _ _ (hplain _ (by decide +kernel)) (hplain _ (by decide +kernel)), rfl, by decide +kernel, ?_⟩,
    by simp [GoodAnimTrees]⟩, by simp [GoodAnimTrees]⟩
  intro ch hc
  rw [List.mem_singleton] at hc
  subst hc
  refine ⟨⟨hplain _ (by decide), by decide, by decide, by decide⟩, fun c hc => ?_⟩
  rw [List.mem_singleton] at hc
  subst hc
  exact ⟨⟨by decide, by decide, by decide, ⟨hplain _ (by decide), Or.inr ⟨_, Or.inr (Or.inr rfl)⟩⟩, by decide +kernel, fun _ h => nomatch h⟩, rfl⟩

theorem apartTree_of {n : Node} (h1 : Apart n.kids) (h2 : ∀ k ∈ n.kids, k.name = text "animation" → ApartTree k) : ApartTree n := by
  obtain ⟨nm, as, t, ks⟩ := n
  unfold ApartTree
  refine ⟨h1, ?_⟩
  simp only [Node.kids] at h2
  clear h1
  induction ks with
  | nil => unfold ApartTrees; trivial
  | cons k ks ih => unfold ApartTrees; exact ⟨h2 k (by simp), ih fun x hx => h2 x (by simp [hx])⟩

/-- The ids of the elements written for it do not collide. -/
example : ∃ n, writeATree .wrap fmtParts sampleDate lucky sampleTree = some n ∧ ApartTree n := by
  have h : (writeATree .wrap fmtParts sampleDate lucky sampleTree).map (fun n => decide ((n.kids.map fun k => (k.name, k.kids.length)) = [(text "animation", 6)] ∧
      ∀ k ∈ n.kids, ((((k.kids.take 4).map nodeCrc).Nodup ∧ some 0#32 ∉ (k.kids.take 4).map nodeCrc) ∧ (k.kids.drop 4).map (fun k => k.raw (text "id")) = List.replicate (k.kids.drop 4).length none) ∧
        ∀ j ∈ k.kids, j.name ≠ text "animation")) = some true := by decide +kernel
  obtain ⟨n, h1, h2⟩ := Option.map_eq_some_iff.1 h
  obtain ⟨h3, h4⟩ := of_decide_eq_true h2
  refine ⟨n, h1, apartTree_of ?_ fun k hk _ => apartTree_of (apart_of 4 (h4 k hk).1.1 (h4 k hk).1.2) fun j hj e => absurd e ((h4 k hk).2 j hj)⟩
  intro x hx _ y hy _
  have hl : n.kids.length = 1 := by simpa using congrArg List.length h3
  obtain ⟨k, hk⟩ := List.length_eq_one_iff.1 hl
  rw [hk, List.mem_singleton] at hx hy
  rw [hx, hy]

/-- The note of the inner animation and the transient flags after saving and loading. -/
example : ((writeATree .wrap fmtParts sampleDate lucky sampleTree).bind (loadATree .wrap sampleDate [])).map (fun t => match t with
    | .mk _ m _ ks => (m, ks.map fun k => match k with | .mk s m cs _ => (s.note, m, cs.map (·.qual)))) = some (false, [(text "hi", true, [text ".X"])]) := by
  decide +kernel

end Verif.FArc
