import Verif.ArcSkinParts
import Verif.ArcTransProps

/-!
# Skins are read back from saved files (C153)
-/

namespace Verif.FArc

open Verif.FStr (Ch)
open Verif.FEff (Text text)
open Verif.FConv (Ov Mat Formats shown)

/-- **C153, partial.** A skin is read back: its target, its bind-shape transform, its joints with their bind-poses, and the joint of each pair. Missing: weights near 1 and weights that do not add up to
0 or 1 (`vertAfter`), and joints whose ids are not words, see `skin_violated`. -/
theorem skin_roundtrip_partial (ov : Ov) {fmt rnd} (hf : Formats fmt rnd) (stack : List FUri.Uri) (id : Text) (s : Skin) (h : GoodSkin ov id s) :
    ∃ n, writeSkin ov fmt stack id s = some n ∧ n.name = text "skin" ∧ loadSkin ov n = some { ok := true, skin := skinAfter rnd s, sids := true } := by
  obtain ⟨t, ht, hp, h63, h92⟩ := h.target
  obtain ⟨u, h1, h2, h3, -⟩ := parse_local ov h63 h92
  rw [ht, Option.some.injEq] at h1
  subst h1
  have hc : FPath.cleanUri ov stack false s.target = some (35 :: t) := by rw [FPath.cleanUri, if_pos h2, h3]
  refine ⟨_, writeSkin_eq ov hf stack id s _ hc, rfl, ?_⟩
  have hq : Plain (35 :: t) := plain_cons (by unfold FXml.IsChar; decide) hp
  have hb : loadBindShape ov (.elem (text "skin") [(text "source", 35 :: t)] [] (skinKids fmt id s)) = some (shownMat rnd s.bindShape) := by
    obtain ⟨txt, e1, e2, e3⟩ := FConv.matrix_roundtrip ov hf s.bindShape identity
    have e : numsText fmt (FConv.matEntries s.bindShape) = txt := by simp only [numsText, e1, Option.getD_some]
    have hne : txt ≠ [] := by
      obtain ⟨L, l1, -, -, l4⟩ := lits hf
      have hw : ∀ x ∈ (FConv.matEntries s.bindShape).map L, x.WF := fun x hx => by obtain ⟨q, _, rfl⟩ := List.mem_map.1 hx; exact l1 q
      obtain ⟨-, -, a3⟩ := FConv.joined_lits _ hw
      rintro rfl
      rw [l4] at e
      rw [e, FConv.tokens_nil] at a3
      simp [FConv.matEntries] at a3
    unfold loadBindShape
    have hk : (Node.elem (text "skin") [(text "source", 35 :: t)] [] (skinKids fmt id s)).child (text "bind_shape_matrix") =
        some (.elem (text "bind_shape_matrix") [] (numsText fmt (FConv.matEntries s.bindShape)) []) := by
      unfold skinKids
      rw [child_cons]
      rfl
    simp only [hk, Node.direct, e, e3 [], if_neg hne, Option.map_some]
    rfl
  have hs : prop (some (.elem (text "skin") [(text "source", 35 :: t)] [] (skinKids fmt id s))) (text "source") = some (35 :: t) := by
    unfold prop
    simp only [Option.bind_some, raw_cons, if_true]
    exact decode_plain hq
  unfold loadSkin
  rw [hb, Option.bind_some, hs, Option.bind_some, ht, Option.bind_some]
  have hj : (Node.elem (text "skin") [(text "source", 35 :: t)] [] (skinKids fmt id s)).child (text "joints") =
      some (.elem (text "joints") [] [] [inputElem (id ++ text "-joints") (text "JOINT") [], inputElem (id ++ text "-bind_poses") (text "INV_BIND_MATRIX") []]) := by
    unfold skinKids
    simp only [child_cons, sourceNames, sourceMatrices, sourceFloats, sourceNode, Node.name, text_inj, String.reduceEq, if_false, if_true]
  have hv : (Node.elem (text "skin") [(text "source", 35 :: t)] [] (skinKids fmt id s)).child (text "vertex_weights") =
      some (.elem (text "vertex_weights") [(text "count", natText s.verts.length)] []
        [inputElem (id ++ text "-joints") (text "JOINT") [(text "offset", intText 0)], inputElem (id ++ text "-weights") (text "WEIGHT") [(text "offset", intText 1)],
          .elem (text "vcount") [] (vcountText s.verts) [], .elem (text "v") [] (vText s.verts) []]) := by
    unfold skinKids
    simp only [child_cons, sourceNames, sourceMatrices, sourceFloats, sourceNode, Node.name, text_inj, String.reduceEq, if_false, if_true]
  simp only [hj, hv]
  unfold loadSkinBody
  have hcount : countOf (some (.elem (text "vertex_weights") [(text "count", natText s.verts.length)] []
        [inputElem (id ++ text "-joints") (text "JOINT") [(text "offset", intText 0)], inputElem (id ++ text "-weights") (text "WEIGHT") [(text "offset", intText 1)],
          .elem (text "vcount") [] (vcountText s.verts) [], .elem (text "v") [] (vText s.verts) []])) = some s.verts.length := by
    unfold countOf prop
    simp only [Option.bind_some, raw_cons, if_true, decode_plain (natText_plain _)]
    exact readNat_natText _ h.verts
  rw [hcount, Option.bind_some]
  have hin : skinInputs (.elem (text "joints") [] [] [inputElem (id ++ text "-joints") (text "JOINT") [], inputElem (id ++ text "-bind_poses") (text "INV_BIND_MATRIX") []])
      (.elem (text "vertex_weights") [(text "count", natText s.verts.length)] []
        [inputElem (id ++ text "-joints") (text "JOINT") [(text "offset", intText 0)], inputElem (id ++ text "-weights") (text "WEIGHT") [(text "offset", intText 1)],
          .elem (text "vcount") [] (vcountText s.verts) [], .elem (text "v") [] (vText s.verts) []]) =
      [inputElem (id ++ text "-joints") (text "JOINT") [], inputElem (id ++ text "-bind_poses") (text "INV_BIND_MATRIX") [],
        inputElem (id ++ text "-joints") (text "JOINT") [(text "offset", intText 0)], inputElem (id ++ text "-weights") (text "WEIGHT") [(text "offset", intText 1)]] := by
    simp [skinInputs, Node.children, Node.kids, inputElem, Node.name, isCombiner, text_inj]
  rw [hin, skin_inputs ov hf h, Option.bind_some, skin_numbers ov h _ _ _ _ _ (by simp [isCombiner, inputElem, Node.name, text_inj]) (by simp [isCombiner, inputElem, Node.name, text_inj]),
    Option.bind_some]
  have hw := h.weights
  have hload := loadVerts_eq (rnd := rnd) (d := skinData rnd s) rfl rfl s.verts (by omega) rfl (by simpa [skinData] using h.indices) s.verts [] rfl
  have hload' : loadVerts (skinData rnd s) (s.verts.map List.length) (pairNumbers 1 s.verts.flatten) s.verts.length 0 0 =
      some (s.verts.map fun v => v.map fun p => (p.1, weightAfter rnd p.2)) := hload
  have hm : makeJoints (skinData rnd s).names (skinData rnd s).poses = some (s.joints.map fun j => (j.1, shownMat rnd j.2)) := by
    have := makeJoints_eq (s.joints.map fun j => (j.1, shownMat rnd j.2))
    rw [List.map_map, List.map_map] at this
    show makeJoints (s.joints.map (·.1)) ((s.joints.map (·.2)).map (shownMat rnd)) = _
    rw [List.map_map]
    exact this
  simp only [hload', Option.bind_some, hm, Option.map_some, List.map_map, Function.comp_def, normalize_eq]
  rfl

/-- **C153.** Weights that are shown as numbers adding up to about 0 or 1, none of them near 1 without being 1, are read back as they are shown. -/
theorem skin_weights_kept (rnd : ℚ → ℚ) (v : List (Int × ℚ)) (h1 : ∀ p ∈ v, p.2 = 1 ∨ 1 / 10000 ≤ |p.2 - 1|)
    (h2 : |(v.map fun p => shown rnd p.2).sum| < 1 / 10000 ∨ |(v.map fun p => shown rnd p.2).sum - 1| < 1 / 10000) : vertAfter rnd v = v.map fun p => (p.1, shown rnd p.2) := by
  have e : ∀ p ∈ v, weightAfter rnd p.2 = shown rnd p.2 := by
    intro p hp
    unfold weightAfter
    rcases h1 p hp with h | h
    · rw [h]; simp
    · rw [if_neg (not_lt.2 h)]
  have es : (v.map fun p => weightAfter rnd p.2) = v.map fun p => shown rnd p.2 := List.map_congr_left e
  unfold vertAfter
  simp only [es, if_pos h2]
  exact List.map_congr_left fun p hp => by rw [e p hp]

/-- **C153.** Whatever skin a file holds, if it is loaded at all, every pair names a joint of the skin, or -1, and the weights of every vertex add up to about 0 or 1. -/
theorem skin_loaded_valid (ov : Ov) (n : Node) (r : SkinResult) (h : loadSkin ov n = some r) :
    ∀ v ∈ r.skin.verts, (∀ p ∈ v, -1 ≤ p.1 ∧ p.1 < r.skin.joints.length) ∧ (|(v.map (·.2)).sum| < 1 / 10000 ∨ |(v.map (·.2)).sum - 1| < 1 / 10000) := by
  unfold loadSkin at h
  obtain ⟨m, -, h⟩ := Option.bind_eq_some_iff.1 h
  obtain ⟨t, -, h⟩ := Option.bind_eq_some_iff.1 h
  obtain ⟨u, -, h⟩ := Option.bind_eq_some_iff.1 h
  split at h
  · unfold loadSkinBody at h
    obtain ⟨count, -, h⟩ := Option.bind_eq_some_iff.1 h
    obtain ⟨d, -, h⟩ := Option.bind_eq_some_iff.1 h
    obtain ⟨c, -, h⟩ := Option.bind_eq_some_iff.1 h
    obtain ⟨verts, hv, h⟩ := Option.bind_eq_some_iff.1 h
    obtain ⟨js, hj, rfl⟩ := Option.map_eq_some_iff.1 h
    intro v hm
    obtain ⟨v', hv', rfl⟩ := List.mem_map.1 hm
    refine ⟨?_, normalize_sum v'⟩
    have hlen : js.length = d.names.length := by rw [← makeJoints_names _ _ _ hj, List.length_map]
    have := (loadVerts_range d c.1 c.2 count 0 0 verts hv).2 v' hv'
    intro p hp
    have hp' : ∃ q ∈ v', q.1 = p.1 := by
      unfold normalizeVert at hp
      simp only at hp
      split at hp
      · exact ⟨p, hp, rfl⟩
      · obtain ⟨q, hq, rfl⟩ := List.mem_map.1 hp
        exact ⟨q, hq, rfl⟩
    obtain ⟨q, hq, e⟩ := hp'
    rw [← e]
    simpa [hlen] using this q hq
  · rw [Option.some.injEq] at h
    subst h
    intro v hv
    cases hv

/-! ## Witnesses -/

/-- The text of the numbers 0, 1/4, 1/2, 1 and of one near 1. -/
def fmtParts (q : ℚ) : Text := if q = 0 then text "0" else if q = 1 then text "1" else if q = 1 / 2 then text "0.5" else if q = 1 / 4 then text "0.25" else text "0.99995"

/-- A skin of two joints for the geometry "mesh", with the given ids of the joints and weights. -/
def sampleSkin (names : List Text) (verts : List (List (Int × ℚ))) : Option Skin :=
  (FUri.parse .wrap (text "#mesh")).map fun u => { target := u, joints := names.map fun t => (t, identity), verts := verts }

/-- The address, joints and vertices after saving and loading. -/
def reloadedSkin (s : Option Skin) : Option (Text × List Text × List (List (Int × ℚ))) :=
  s.bind fun s => (writeSkin .wrap fmtParts [] (text "c") s).bind fun n => (loadSkin .wrap n).map fun r => (r.skin.target.fragment, r.skin.joints.map (·.1), r.skin.verts)

/-- A skin that is read back as it was. -/
example : reloadedSkin (sampleSkin [text "hip", text "knee"] [[(0, 1 / 2), (1, 1 / 2)], [], [(-1, 1 / 4), (0, 1 / 4), (1, 1 / 2)], [(1, 1)]]) =
    some (text "mesh", [text "hip", text "knee"], [[(0, 1 / 2), (1, 1 / 2)], [], [(-1, 1 / 4), (0, 1 / 4), (1, 1 / 2)], [(1, 1)]]) := by decide +kernel

/-- It meets the conditions. -/
theorem sampleSkin_good : ∃ s, sampleSkin [text "hip", text "knee"] [[(0, 1 / 2), (1, 1 / 2)], [], [(-1, 1 / 4), (0, 1 / 4), (1, 1 / 2)], [(1, 1)]] = some s ∧ GoodSkin .wrap (text "c") s := by
  obtain ⟨u, hu, -⟩ := parse_local .wrap (t := text "mesh") (by decide) (by decide)
  refine ⟨{ target := u, joints := [text "hip", text "knee"].map fun t => (t, identity), verts := [[(0, 1 / 2), (1, 1 / 2)], [], [(-1, 1 / 4), (0, 1 / 4), (1, 1 / 2)], [(1, 1)]] }, ?_, ?_⟩
  · unfold sampleSkin
    rw [show text "#mesh" = 35 :: text "mesh" from by decide, hu]
    rfl
  · refine ⟨hplain _ (by decide), ⟨text "mesh", hu, hplain _ (by decide), by decide, by decide⟩, ?_, by simp, by simp, by simp, by simp, by simp; grind⟩
    intro j hj
    simp only [List.map_cons, List.map_nil, List.mem_cons, List.not_mem_nil, or_false] at hj
    unfold Word
    rcases hj with rfl | rfl <;> decide

/-- **C153, violated.** Weights that add up to 3/4 are scaled to add up to 1. A weight near 1 becomes 1. An empty id of a joint is lost, so that the ids of the joints after it change places and the pairs name
other joints. When an id holds a blank there are more names than bind-poses and the loading reads beyond the list of bind-poses. -/
theorem skin_violated :
    reloadedSkin (sampleSkin [text "a", text "b"] [[(0, 1 / 2), (1, 1 / 4)]]) = some (text "mesh", [text "a", text "b"], [[(0, 2 / 3), (1, 1 / 3)]]) ∧
    reloadedSkin (sampleSkin [text "a"] [[(0, 99995 / 100000)]]) = some (text "mesh", [text "a"], [[(0, 1)]]) ∧
    reloadedSkin (sampleSkin [[], text "b", text "c"] [[(1, 1)], [(2, 1)]]) = some (text "mesh", [text "b", text "c"], [[(1, 1)], [(-1, 1)]]) ∧
    reloadedSkin (sampleSkin [text "a b"] [[(0, 1)]]) = none := by
  refine ⟨?_, ?_, ?_, ?_⟩ <;> decide +kernel

/-- A skin element with the given children of `<vertex_weights>` and number of vertices, two joints and one weight. -/
def skinFile (count : Text) (ks : List Node) : Node :=
  .elem (text "skin") [(text "source", text "#mesh")] []
    [sourceNames (text "j") [text "a", text "b"] (text "JOINT") false, sourceMatrices fmtParts (text "m") [identity, identity], sourceFloats fmtParts (text "w") [1] 1 (some [text "WEIGHT"]),
      .elem (text "joints") [] [] [inputElem (text "j") (text "JOINT") [], inputElem (text "m") (text "INV_BIND_MATRIX") []],
      .elem (text "vertex_weights") [(text "count", count)] [] ([inputElem (text "j") (text "JOINT") [(text "offset", text "0")], inputElem (text "w") (text "WEIGHT") [(text "offset", text "1")]] ++ ks)]

/-- The vertices of a file. -/
def skinFileVerts (count : Text) (ks : List Node) : Option (List (List (Int × ℚ))) := (loadSkin .wrap (skinFile count ks)).map (·.skin.verts)

/-- **C153, violated.** Loading is undefined for files without `<vcount>` and `<v>`, without `<v>`, with fewer counts than vertices, and with an empty `<v>` although a vertex has a pair. -/
theorem skin_file_violated :
    skinFileVerts (text "1") [valueChild (text "vcount") (text "1"), valueChild (text "v") (text "1 0")] = some [[(1, 1)]] ∧
    skinFileVerts (text "0") [] = none ∧
    skinFileVerts (text "1") [valueChild (text "vcount") (text "0")] = none ∧
    skinFileVerts (text "2") [valueChild (text "vcount") (text "1"), valueChild (text "v") (text "1 0")] = none ∧
    skinFileVerts (text "1") [valueChild (text "vcount") (text "1"), valueChild (text "v") (text "")] = none := by decide +kernel

end Verif.FArc
