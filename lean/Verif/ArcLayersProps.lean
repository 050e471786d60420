import Verif.ArcLayersSpec
import Verif.ArcSceneProps
import Verif.ArcInstLemmas
import Verif.ArcCustomProps

/-!
# C186: the layers and times of a document are saved and loaded
-/

namespace Verif.FArc

open Verif.FEff (Text text)
open Verif.FConv (Ov DateTime Formats shown)

theorem layerText_words : ∀ os : List Text, layerText os = wordsText os
  | [] => rfl
  | [a] => by simp [layerText, wordsText]
  | a :: b :: os => by
    have := layerText_words (b :: os)
    unfold layerText at this ⊢
    rw [List.flatMap_cons, wordsText, ← this, List.dropLast_append_of_ne_nil (by simp), List.append_assoc]
    rfl

theorem objects_plain : ∀ ws : List Text, (∀ w ∈ ws, Plain w) → Plain (wordsText ws)
  | [], _ => plain_nil
  | [a], h => h a List.mem_cons_self
  | a :: b :: ws, h => by
    intro c hc
    rw [wordsText] at hc
    rcases List.mem_append.1 hc with hc | hc
    · exact h a List.mem_cons_self c hc
    · rcases List.mem_cons.1 hc with rfl | hc
      · exact hplain (text " ") (by decide +kernel) 32 (List.mem_singleton.2 rfl)
      · exact objects_plain (b :: ws) (fun w hw => h w (List.mem_cons_of_mem a hw)) c hc

/-- A layer in the extra tree. -/
def layerNode (l : Text × List Text) : FExtra.Node := .mk (text "layer") (layerText l.2) [⟨text "name", l.1⟩] []

/-- The times in the extra tree. -/
def timeNodes (fmt : ℚ → Text) (d : Doc) : List FExtra.Node :=
  (match d.start with | some q => [.mk (text "start_time") (numText fmt q) [] []] | none => []) ++ (match d.stop with | some q => [.mk (text "end_time") (numText fmt q) [] []] | none => [])

theorem load_layer (l : Text × List Text) (h1 : l.1 ≠ []) (h2 : ∀ w ∈ l.2, Word w ∧ Plain w) : loadENode (layerElem l) = some (layerNode l) := by
  have hp : Plain (layerText l.2) := by rw [layerText_words]; exact objects_plain _ fun w hw => (h2 w hw).2
  have c1 : FExtra.cleanName (text "layer") = text "layer" := by decide +kernel
  have c2 : FExtra.cleanName (text "name") = text "name" := by decide +kernel
  unfold layerElem layerNode
  rw [if_neg h1, loadENode, loadENodes, Option.bind_some]
  simp only [List.length_nil, if_true, content, fullText_leaf, decode_encode hp, Option.map_some, c1, List.foldl_cons, List.foldl_nil]
  by_cases he : layerText l.2 = []
  · rw [if_pos he, he]
    simp [FExtra.addAttribute, FExtra.putAttribute, FExtra.findAttribute, c2]
  · rw [if_neg he]
    simp [FExtra.setContent, FExtra.addAttribute, FExtra.putAttribute, FExtra.findAttribute, c2]

theorem load_layers : ∀ ls : List (Text × List Text), GoodLayers ls → loadENodes (ls.map layerElem) = some (ls.map layerNode)
  | [], _ => rfl
  | l :: ls, h => by
    rw [List.map_cons, loadENodes, load_layer l (h l List.mem_cons_self).1 (h l List.mem_cons_self).2, Option.bind_some, load_layers ls fun x hx => h x (List.mem_cons_of_mem l hx)]
    rfl

theorem load_time {fmt rnd} (hf : Formats fmt rnd) (n : Text) (hn : FExtra.cleanName n = n) (q : ℚ) : loadENode (.elem n [] (numText fmt q) []) = some (.mk n (numText fmt q) [] []) := by
  rw [loadENode, loadENodes, Option.bind_some]
  simp only [List.length_nil, if_true, content, fullText_leaf, decode_plain (numText_plain hf q), Option.map_some, hn, List.foldl_nil]
  by_cases he : numText fmt q = []
  · rw [if_pos he, he]
  · rw [if_neg he]
    rfl

theorem load_times {fmt rnd} (hf : Formats fmt rnd) (d : Doc) : loadENodes (timeElems fmt d) = some (timeNodes fmt d) := by
  have c1 : FExtra.cleanName (text "start_time") = text "start_time" := by decide +kernel
  have c2 : FExtra.cleanName (text "end_time") = text "end_time" := by decide +kernel
  unfold timeElems timeNodes
  cases d.start <;> cases d.stop <;> simp [loadENodes, load_time hf _ c1, load_time hf _ c2]

/-- The techniques that are loaded. -/
def loadedTechs (fmt : ℚ → Text) (d : Doc) : List FExtra.Tech :=
  (if d.layers = [] then [] else [⟨text "MAYA", .mk [] [] [] (d.layers.map layerNode)⟩]) ++ if d.start = none ∧ d.stop = none then [] else [⟨text "FCOLLADA", .mk [] [] [] (timeNodes fmt d)⟩]

theorem load_techs {fmt rnd} (hf : Formats fmt rnd) (d : Doc) (h : GoodLayers d.layers) : (visualTechs fmt d).foldlM loadTech [] = some (loadedTechs fmt d) := by
  have p1 : ∀ ks, prop (some (Node.elem (text "technique") [(text "profile", text "MAYA")] [] ks)) (text "profile") = some (text "MAYA") := fun ks =>
    prop_raw (t := text "MAYA") rfl (hplain _ (by decide +kernel))
  have p2 : ∀ ks, prop (some (Node.elem (text "technique") [(text "profile", text "FCOLLADA")] [] ks)) (text "profile") = some (text "FCOLLADA") := fun ks =>
    prop_raw (t := text "FCOLLADA") rfl (hplain _ (by decide +kernel))
  have ne : text "MAYA" ≠ text "FCOLLADA" := by decide +kernel
  have a1 : loadTech [] (.elem (text "technique") [(text "profile", text "MAYA")] [] (d.layers.map layerElem)) = some [⟨text "MAYA", .mk [] [] [] (d.layers.map layerNode)⟩] := by
    unfold loadTech
    rw [p1, Option.bind_some, Node.kids, load_layers _ h]
    rfl
  have a2 : ∀ ts : List FExtra.Tech, (∀ t ∈ ts, t.profile ≠ text "FCOLLADA") →
      loadTech ts (.elem (text "technique") [(text "profile", text "FCOLLADA")] [] (timeElems fmt d)) = some (ts ++ [⟨text "FCOLLADA", .mk [] [] [] (timeNodes fmt d)⟩]) := by
    intro ts hts
    have e : FExtra.findTechnique ts (text "FCOLLADA") = none := by
      unfold FExtra.findTechnique
      rw [List.findIdx?_eq_none_iff]
      intro t ht
      simpa using hts t ht
    unfold loadTech FExtra.addTechnique
    rw [p2, Option.bind_some, Node.kids, load_times hf, e]
    simp only [Option.map_some]
    congr 1
    exact modify_at _ _ [] ts
  unfold visualTechs loadedTechs
  by_cases h1 : d.layers = [] <;> by_cases h2 : d.start = none ∧ d.stop = none
  · rw [if_pos h1, if_pos h1, if_pos h2, if_pos h2]; rfl
  · rw [if_pos h1, if_pos h1, if_neg h2, if_neg h2, List.nil_append, List.foldlM_cons, a2 [] (by simp)]
    rfl
  · rw [if_neg h1, if_neg h1, if_pos h2, if_pos h2, List.append_nil, List.foldlM_cons, a1]
    rfl
  · rw [if_neg h1, if_neg h1, if_neg h2, if_neg h2, List.singleton_append, List.foldlM_cons, a1]
    refine (Option.bind_some _ _).trans ?_
    rw [List.foldlM_cons, a2 _ (by simpa using ne)]
    rfl

theorem layer_clean (l : Text × List Text) : isNote (layerNode l) = false := by
  simp [isNote, layerNode, FExtra.Node.name, text_inj]

theorem times_mem {fmt : ℚ → Text} {d : Doc} {x : FExtra.Node} (h : x ∈ timeNodes fmt d) : ∃ q, x = .mk (text "start_time") (numText fmt q) [] [] ∨ x = .mk (text "end_time") (numText fmt q) [] [] := by
  unfold timeNodes at h
  rcases List.mem_append.1 h with h | h
  · cases e : d.start with
    | none => rw [e] at h; simp at h
    | some q => rw [e] at h; exact ⟨q, .inl (List.mem_singleton.1 h)⟩
  · cases e : d.stop with
    | none => rw [e] at h; simp at h
    | some q => rw [e] at h; exact ⟨q, .inr (List.mem_singleton.1 h)⟩

theorem loaded_clean (fmt : ℚ → Text) (d : Doc) : NoNotes (loadedTechs fmt d) := by
  intro t ht _ c hc
  unfold loadedTechs at ht
  rcases List.mem_append.1 ht with ht | ht
  · split at ht
    · simp at ht
    · rw [List.mem_singleton.1 ht] at hc
      obtain ⟨l, -, rfl⟩ := List.mem_map.1 hc
      exact layer_clean l
  · split at ht
    · simp at ht
    · rw [List.mem_singleton.1 ht] at hc
      obtain ⟨q, rfl | rfl⟩ := times_mem hc <;> simp [isNote, FExtra.Node.name, text_inj]

/-- The elements are read into the extra tree. -/
theorem load_visual {fmt rnd} (hf : Formats fmt rnd) (d : Doc) (h : GoodLayers d.layers) : (visualExtra fmt true d).foldlM loadEntExtra (FExtra.newExtra, []) = some ([⟨[], loadedTechs fmt d⟩], []) := by
  unfold visualExtra
  by_cases he : visualTechs fmt d = []
  · rw [if_neg (by simp [he])]
    have := load_techs hf d h
    rw [he] at this
    rw [← Option.some.inj this]
    rfl
  · rw [if_pos ⟨rfl, he⟩, List.foldlM_cons]
    have hc : (Node.elem (text "extra") [] [] (visualTechs fmt d)).children (text "technique") = visualTechs fmt d := by
      unfold Node.children
      rw [Node.kids, List.filter_eq_self]
      intro k hk
      unfold visualTechs at hk
      rcases List.mem_append.1 hk with hk | hk
      · split at hk
        · simp at hk
        · rw [List.mem_singleton.1 hk]; exact decide_eq_true rfl
      · split at hk
        · simp at hk
        · rw [List.mem_singleton.1 hk]; exact decide_eq_true rfl
    have hl : loadExtra FExtra.newExtra (.elem (text "extra") [] [] (visualTechs fmt d)) = some [⟨[], loadedTechs fmt d⟩] := by
      unfold loadExtra typeFor
      rw [if_pos (show (Node.elem (text "extra") [] [] (visualTechs fmt d)).name = text "extra" from rfl), show prop (some (Node.elem (text "extra") [] [] (visualTechs fmt d))) (text "type") = some [] from rfl]
      show (loadType [] (Node.elem (text "extra") [] [] (visualTechs fmt d))).map (fun ts => [(⟨[], ts⟩ : FExtra.EType)]) = _
      unfold loadType
      rw [hc, load_techs hf d h]
      rfl
    have hx : loadEntExtra (FExtra.newExtra, []) (.elem (text "extra") [] [] (visualTechs fmt d)) = some ([⟨[], loadedTechs fmt d⟩], []) := by
      unfold loadEntExtra
      simp only [hl, Option.bind_some, defaultTechs_head, takeNotes_clean [] _ (loaded_clean fmt d), onDefault_head, Option.map_some]
    rw [hx]
    rfl

theorem layer_taken (l : Text × List Text) : sceneTaken (layerNode l) = true := by
  have : attrValue (layerNode l) (text "name") = some l.1 := by
    unfold attrValue layerNode FExtra.findAttribute
    simp [FExtra.Node.attrs]
  unfold sceneTaken
  rw [this]
  simp [isLayer, layerNode, FExtra.Node.name, FExtra.Node.children]

theorem time_taken (t : Text) : sceneTaken (.mk (text "start_time") t [] []) = true ∧ sceneTaken (.mk (text "end_time") t [] []) = true := by
  constructor <;> simp [sceneTaken, FExtra.Node.name, FExtra.Node.children]

theorem take_layers (ov : Ov) : ∀ (ls : List (Text × List Text)) (d : Doc) (v : ℚ), GoodLayers ls → (ls.map layerNode).foldlM (takeParam ov) (d, v) = some ({ d with layers := d.layers ++ ls }, v)
  | [], d, v, _ => by simp
  | l :: ls, d, v, h => by
    have hw : ∀ w ∈ l.2, Word w := fun w hw => ((h l List.mem_cons_self).2 w hw).1
    have ha : attrValue (layerNode l) (text "name") = some l.1 := by
      unfold attrValue layerNode FExtra.findAttribute
      simp [FExtra.Node.attrs]
    have e : takeParam ov (d, v) (layerNode l) = some ({ d with layers := d.layers ++ [l] }, v) := by
      unfold takeParam
      rw [if_neg (by simp [layerNode, FExtra.Node.name, text_inj]), if_neg (by simp [layerNode, FExtra.Node.name, text_inj]), if_neg (by simp [layerNode, FExtra.Node.name, text_inj]), ha]
      have := toStringList_empty 0 (wordsText l.2) (words_tokens l.2 hw).2
      rw [List.replicate_zero, (words_tokens l.2 hw).1] at this
      simp only [layerNode, FExtra.Node.content, layerText_words, this, Option.map_some]
    rw [List.map_cons, List.foldlM_cons, e]
    refine (take_layers ov ls { d with layers := d.layers ++ [l] } v fun x hx => h x (List.mem_cons_of_mem l hx)).trans ?_
    simp

theorem take_times (ov : Ov) {fmt rnd} (hf : Formats fmt rnd) (d old : Doc) (v : ℚ) : (timeNodes fmt d).foldlM (takeParam ov) (old, v) =
    some ({ old with start := (docAfter rnd d old).start, stop := (docAfter rnd d old).stop }, v) := by
  have e1 : ∀ (o : Doc) (q : ℚ), takeParam ov (o, v) (.mk (text "start_time") (numText fmt q) [] []) = some ({ o with start := some (shown rnd q) }, v) := by
    intro o q
    unfold takeParam
    rw [if_pos (show (FExtra.Node.mk (text "start_time") (numText fmt q) [] []).name = text "start_time" from rfl)]
    simp only [FExtra.Node.content, readNum_numText ov hf, Option.map_some]
  have e2 : ∀ (o : Doc) (q : ℚ), takeParam ov (o, v) (.mk (text "end_time") (numText fmt q) [] []) = some ({ o with stop := some (shown rnd q) }, v) := by
    intro o q
    unfold takeParam
    rw [if_neg (by simp [FExtra.Node.name, text_inj]), if_pos (show (FExtra.Node.mk (text "end_time") (numText fmt q) [] []).name = text "end_time" from rfl)]
    simp only [FExtra.Node.content, readNum_numText ov hf, Option.map_some]
  unfold timeNodes docAfter
  cases d.start <;> cases d.stop <;> simp [e1, e2]

/-- The layers and times are taken out of the extra tree. -/
theorem take_visual (ov : Ov) {fmt rnd} (hf : Formats fmt rnd) (d : Doc) (h : GoodLayers d.layers) (old : Doc) (g : Head) (hg : g.ent.extra = [⟨[], loadedTechs fmt d⟩]) :
    loadSceneExtra ov old g = some (docAfter rnd d old, { g with ent := { g.ent with extra := [⟨[], leftTechs d⟩] } }, true) := by
  have f1 : (d.layers.map layerNode).filter sceneTaken = d.layers.map layerNode := List.filter_eq_self.2 fun x hx => by
    obtain ⟨l, -, rfl⟩ := List.mem_map.1 hx
    exact layer_taken l
  have f2 : (timeNodes fmt d).filter sceneTaken = timeNodes fmt d := List.filter_eq_self.2 fun x hx => by
    obtain ⟨q, rfl | rfl⟩ := times_mem hx
    · exact (time_taken _).1
    · exact (time_taken _).2
  have g1 : (d.layers.map layerNode).filter (fun x => !sceneTaken x) = [] := List.filter_eq_nil_iff.2 fun x hx => by
    obtain ⟨l, -, rfl⟩ := List.mem_map.1 hx
    simp [layer_taken l]
  have g2 : (timeNodes fmt d).filter (fun x => !sceneTaken x) = [] := List.filter_eq_nil_iff.2 fun x hx => by
    obtain ⟨q, rfl | rfl⟩ := times_mem hx
    · simp [(time_taken _).1]
    · simp [(time_taken _).2]
  have hflat : ((loadedTechs fmt d).flatMap fun t => t.node.children.filter sceneTaken) = d.layers.map layerNode ++ timeNodes fmt d := by
    unfold loadedTechs
    rw [List.flatMap_append]
    congr 1
    · by_cases h1 : d.layers = []
      · rw [if_pos h1, h1]; rfl
      · rw [if_neg h1]; simp [FExtra.Node.children, f1]
    · by_cases h2 : d.start = none ∧ d.stop = none
      · rw [if_pos h2]; simp [timeNodes, h2.1, h2.2]
      · rw [if_neg h2]; simp [FExtra.Node.children, f2]
  have hleft : ((loadedTechs fmt d).map fun t => ({ t with node := .mk t.node.name t.node.content t.node.attrs (t.node.children.filter fun x => !sceneTaken x) } : FExtra.Tech)) = leftTechs d := by
    unfold loadedTechs leftTechs
    rw [List.map_append]
    congr 1
    · by_cases h1 : d.layers = []
      · rw [if_pos h1, if_pos h1]; rfl
      · rw [if_neg h1, if_neg h1]; simp [FExtra.Node.name, FExtra.Node.content, FExtra.Node.attrs, FExtra.Node.children, FExtra.blank, g1]
    · by_cases h2 : d.start = none ∧ d.stop = none
      · rw [if_pos h2, if_pos h2]; rfl
      · rw [if_neg h2, if_neg h2]; simp [FExtra.Node.name, FExtra.Node.content, FExtra.Node.attrs, FExtra.Node.children, FExtra.blank, g2]
  have hin : extraInsts [⟨[], leftTechs d⟩] = ([], [⟨[], leftTechs d⟩], true) := extraInsts_none (by
    intro t ht
    rw [List.mem_singleton.1 ht]
    exact (show ([] : Text) ≠ text "instances" by decide +kernel))
  unfold loadSceneExtra
  rw [hg, defaultTechs_head, Option.bind_some, hflat, List.foldlM_append, take_layers ov _ _ _ h]
  simp only [Option.bind_eq_bind, Option.bind_some, take_times ov hf, onDefault_head, hleft, Option.map_some, hin, List.append_nil]
  rfl

/-- **C186, partial.** If the document shows a visual scene without note and extra data, its layers, in their order, with their names and objects, and its start and end time, as they are shown, are there after saving and loading,
together with the scene (C150); the layers and times that the loading document has are kept, except for times that the file has. Missing: layers without a name (`layer_unnamed_violated`), objects that are no words
(`layer_blank_violated`), scenes with extra data of their own; in the extra tree the techniques stay without content (`layer_techniques_violated`). -/
theorem layers_roundtrip_partial (ov : Ov) (len : V3 → ℚ) {fmt rnd} (hf : Formats fmt rnd) (now now' : DateTime) (hn : GoodDate now) (h : Head) (ks : List SNode) (hg : GoodTree ov rnd true [] (.own h ks))
    (hnote : h.ent.note = []) (hextra : FExtra.hasContent h.ent.extra = false) (d : Doc) (hd : GoodLayers d.layers) :
    ∃ n, writeVScene ov fmt now true d h ks = some n ∧ n.name = text "visual_scene" ∧ ∀ old : Doc, ∃ (g : Head) (js : List SNode), after ov rnd len now true [] old.seen (.own h ks) = .own g js ∧
      loadSNode ov len now' [] [] old n =
        some (.own { g with ent := { g.ent with extra := [⟨[], leftTechs d⟩] } } js, { docAfter rnd d old with seen := (SNode.own h ks).ids.reverse ++ old.seen }, true) := by
  obtain ⟨g1, g2, g3, g4, g5⟩ : GoodHead ov rnd h ∧ (true = false → h.sid ≠ [] → h.sid ∉ ([] : List Text)) ∧ (linksOf ks).Nodup ∧ (∀ t ∈ linksOf ks, GoodLink t) ∧
      GoodTrees ov rnd [[]] ks := by
    cases hg with | own a b c d e => exact ⟨a, b, c, d, e⟩
  obtain ⟨as, ts, o1, o2, o3, o4⟩ := openNode_load ov hf now now' hn true h g1
  obtain ⟨os, w1, w2, w3⟩ := trees_load ov len hf now now' hn ks [[]] [h.ent.id] g5
  have x1 : sceneExtra true h = some [] := by
    unfold sceneExtra withVisibility
    rw [if_pos (show (true || decide (h.visibility > 1 / 2)) = true from rfl), Option.bind_some, hnote]
    unfold writeEntityExtra
    rw [if_pos rfl]
    unfold writeExtra
    rw [hextra]
    rfl
  have x2 : ∀ k ∈ visualExtra fmt true d, k.name = text "extra" := by
    intro k hk
    unfold visualExtra at hk
    split at hk
    · rw [List.mem_singleton.1 hk]; rfl
    · simp at hk
  have x3 : (visualExtra fmt true d).foldlM loadEntExtra (FExtra.newExtra, []) = some ([⟨[], loadedTechs fmt d⟩], h.ent.note) := by rw [hnote]; exact load_visual hf d hd
  set ns := visualExtra fmt true d with hns'
  set rest := ts ++ h.insts ++ (linksOf ks).map linkElem ++ os with hrest
  have htn := wrote_names o3
  have hr : ∀ k ∈ rest, k.name ≠ text "asset" ∧ k.name ≠ text "extra" := by
    intro k hk
    simp only [hrest, List.mem_append, List.mem_map] at hk
    rcases hk with ((hk | hk) | ⟨t, -, rfl⟩) | hk
    · have := htn k hk
      simp only [transNames, List.mem_cons, List.not_mem_nil, or_false] at this
      rcases this with e | e | e | e | e | e <;> rw [e] <;> simp [text_inj]
    · have := g1.insts k hk
      simp only [List.mem_cons, List.not_mem_nil, or_false] at this
      rcases this with e | e | e | e | e <;> rw [e] <;> simp [text_inj]
    · simp [linkElem, Node.name, text_inj]
    · rw [w2 k hk]; simp [text_inj]
  refine ⟨.elem (text "visual_scene") (nodeAttrs true h) [] (as ++ (rest ++ ns)), ?_, rfl, fun old => ⟨_, _, rfl, ?_⟩⟩
  · rw [writeVScene, o1, Option.bind_some, writeLinks_eq ov ks g4, Option.bind_some, w1, Option.bind_some, x1, Option.map_some]
    simp [hrest, Node.name, Node.attrs, Node.direct, Node.kids, hns']
  · have hhead := loadNodeHead_elem ov now' true [] h g1 g2 (text "visual_scene") as rest ns _ _ (o4 (rest ++ ns) (by
      intro k hk
      rcases List.mem_append.1 hk with hk | hk
      · exact (hr k hk).1
      · rw [x2 k hk]; simp [text_inj]) _ _ _) (by
      intro k hk
      rcases List.mem_append.1 hk with hk | hk
      · rw [o2 k hk]; simp [text_inj]
      · exact (hr k hk).2) x2 x3
    rw [loadSNode, hhead, Option.bind_some]
    simp only [if_true]
    have hsplit : as ++ (rest ++ ns) = (as ++ ts ++ h.insts ++ (linksOf ks).map linkElem) ++ (os ++ ns) := by simp [hrest]
    have hne : ∀ k ∈ as ++ ts ++ h.insts ++ (linksOf ks).map linkElem, k.name ≠ text "node" := by
      intro k hk
      simp only [List.mem_append, List.mem_map] at hk
      rcases hk with ((hk | hk) | hk) | ⟨t, -, rfl⟩
      · rw [o2 k hk]; simp [text_inj]
      · have := htn k hk
        simp only [transNames, List.mem_cons, List.not_mem_nil, or_false] at this
        rcases this with e | e | e | e | e | e <;> rw [e] <;> simp [text_inj]
      · have := g1.insts k hk
        simp only [List.mem_cons, List.not_mem_nil, or_false] at this
        rcases this with e | e | e | e | e <;> rw [e] <;> simp [text_inj]
      · simp [linkElem, Node.name, text_inj]
    rw [hsplit, loadSKids_others _ _ _ _ _ _ _ _ hne, List.foldlM_append, List.foldlM_append, List.foldlM_append, loadOthers_skip ov len _ as _ fun k hk => .inl (o2 k hk)]
    simp only [Option.bind_eq_bind, Option.bind_some]
    rw [loadOthers_trans ov len _ hf h.trans ts o3 fun x hx => ⟨(g1.trans x hx).1, (g1.trans x hx).2.1⟩, Option.bind_some, loadOthers_insts ov len _ _ _ g1.insts, Option.bind_some,
      loadLinks_eq ov len _ _ _ g3 g4 (by simp), Option.bind_some, w3 _ _ rfl]
    have hns := loadSKids_others ov len now' [[]] [h.ent.id] [] ns
    simp only [List.append_nil] at hns
    rw [hns _ fun k hk => by rw [x2 k hk]; simp [text_inj], loadOthers_skip ov len _ ns _ fun k hk => .inr (x2 k hk), Option.bind_some, loadSKids, Option.bind_some]
    simp only [List.nil_append]
    rw [take_visual ov hf d hd _ _ rfl, Option.map_some]
    have hfil : (linksOf ks).filter (fun t => decide (t ∈ h.ent.id :: old.seen ∧ t ∉ [h.ent.id])) = (linksOf ks).filter fun t => decide (t ∈ old.seen ∧ t ≠ h.ent.id ∧ t ∉ ([] : List Text)) := by
      apply List.filter_congr
      intro t _
      by_cases e : t = h.ent.id <;> simp [e]
    rw [hfil]
    simp [shownHead, SNode.ids, docAfter]

/-- **C186.** A visual scene that the document does not show is written without layers and times. -/
theorem layers_other_scene (ov : Ov) (fmt : ℚ → Text) (now : DateTime) (d : Doc) (h : Head) (ks : List SNode) : writeVScene ov fmt now false d h ks = writeSNode ov fmt now true (.own h ks) := by
  unfold writeVScene
  rw [writeSNode]
  simp [visualExtra]

/-- Two layers, one without objects, and a start time. -/
def sampleLayers : Doc := { layers := [(text "walls", [text "n1", text "n2"]), (text "none", [])], start := some 2 }

example : GoodLayers sampleLayers.layers ∧ GoodTree .wrap (fun _ => 3 / 2) true [] (.own (idHead (text "r") 1) []) ∧ (idHead (text "r") 1).ent.note = [] ∧ FExtra.hasContent (idHead (text "r") 1).ent.extra = false := by
  refine ⟨?_, .own (goodHead_id .wrap (fun _ => 3 / 2) (text "r") 1 (by decide +kernel) ⟨by decide +kernel, by decide +kernel, by decide +kernel⟩ (by decide +kernel)) (by simp) (by simp [linksOf]) (by simp [linksOf]) .nil, rfl, rfl⟩
  intro l hl
  simp only [sampleLayers, List.mem_cons, List.not_mem_nil, or_false] at hl
  rcases hl with rfl | rfl
  · refine ⟨by decide +kernel, fun w hw => ?_⟩
    simp only [List.mem_cons, List.not_mem_nil, or_false] at hw
    rcases hw with rfl | rfl
    · exact ⟨⟨by decide +kernel, by decide +kernel, by decide +kernel⟩, hplain _ (by decide +kernel)⟩
    · exact ⟨⟨by decide +kernel, by decide +kernel, by decide +kernel⟩, hplain _ (by decide +kernel)⟩
  · exact ⟨by decide +kernel, by simp⟩

/-! ## What does not hold -/

/-- The layers, and the profiles and numbers of parameters of the techniques in the extra tree of the scene, after saving and loading. -/
def reloadedLayers (ls : List (Text × List Text)) : Option (List (Text × List Text) × List (Text × Nat)) :=
  (writeVScene .wrap fmt02 sampleDate true { layers := ls } { ent := { id := text "r" } } []).bind fun n => (loadSNode .wrap lenAxis sampleDate [] [] {} n).map fun r =>
    (r.2.1.layers, match r.1 with | .own g _ => g.ent.extra.flatMap fun t => t.techs.map fun x => (x.profile, x.node.children.length) | .link _ => [])

/-- **C186, violated.** A layer without a name is not loaded: its element stays in the extra tree of the scene. -/
theorem layer_unnamed_violated : reloadedLayers [([], [text "n1"])] = some ([], [(text "MAYA", 1)]) := by decide +kernel

/-- **C186, violated.** An object with a blank in it is two objects afterwards, and an object without text is none. -/
theorem layer_blank_violated : reloadedLayers [(text "a", [text "n 1", []])] = some ([(text "a", [text "n", text "1"])], [(text "MAYA", 0)]) := by decide +kernel

/-- **C186, violated.** A scene without extra data has a technique without content afterwards. -/
theorem layer_techniques_violated : reloadedLayers [(text "a", [text "n1"])] = some ([(text "a", [text "n1"])], [(text "MAYA", 0)]) := by decide +kernel

end Verif.FArc
