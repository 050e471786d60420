import Verif.ArcTreeSpec
import Verif.ArcPlainEnt
import Verif.ArcAnimProps

/-! # Lemmas for the properties of saved trees of animations -/

namespace Verif.FArc

open Verif.FEff (Text text)
open Verif.FConv (Ov DateTime Formats shown)
open Verif.Enum (Interpolation)

/-- The two nodes that note a target. -/
abbrev targetNodes (x : Text × Text) : List FExtra.Node := [.mk (text "pointer") x.1 [] [], .mk (text "pointer") x.2 [] []]

theorem pointer_name : FExtra.cleanName (text "pointer") = text "pointer" := by decide +kernel

theorem addPointers (n c : Text) (a : List FExtra.Attr) (cs : List FExtra.Node) (x : Text × Text) :
    FExtra.addParameter (text "pointer") x.2 (FExtra.addParameter (text "pointer") x.1 (.mk n c a cs)) = .mk n c a (cs ++ targetNodes x) := by
  simp only [FExtra.addParameter, FExtra.setName, FExtra.setContent, FExtra.blank, pointer_name, List.append_assoc]
  rfl

theorem note_first (e : FExtra.Extra) (x : Text × Text) (h : text "AnimTargets" ∉ e.map (·.name)) : noteTarget e x = e ++ [⟨text "AnimTargets", [⟨text "TEMP", .mk [] [] [] (targetNodes x)⟩]⟩] := by
  have hf : FExtra.findType e (text "AnimTargets") = none := by
    unfold FExtra.findType
    rw [List.findIdx?_eq_none_iff]
    intro t ht
    simpa using fun he => h (List.mem_map.2 ⟨t, ht, he⟩)
  unfold noteTarget FExtra.addType
  rw [hf]
  simp only [modify_last]
  rw [show FExtra.addTechnique [] (text "TEMP") = ([⟨text "TEMP", FExtra.blank⟩], 0) from rfl]
  simp only [List.modify_zero_cons]
  rw [show FExtra.blank = .mk [] [] [] [] from rfl, addPointers]
  rfl

theorem note_next (e : FExtra.Extra) (cs : List FExtra.Node) (x : Text × Text) (h : text "AnimTargets" ∉ e.map (·.name)) :
    noteTarget (e ++ [⟨text "AnimTargets", [⟨text "TEMP", .mk [] [] [] cs⟩]⟩]) x = e ++ [⟨text "AnimTargets", [⟨text "TEMP", .mk [] [] [] (cs ++ targetNodes x)⟩]⟩] := by
  have hf : FExtra.findType (e ++ [⟨text "AnimTargets", [⟨text "TEMP", .mk [] [] [] cs⟩]⟩]) (text "AnimTargets") = some e.length := by
    unfold FExtra.findType
    exact findIdx_mid (fun y : FExtra.EType => y.name) e [] ⟨text "AnimTargets", _⟩ h
  unfold noteTarget FExtra.addType
  rw [hf]
  simp only [modify_last]
  rw [show FExtra.addTechnique [⟨text "TEMP", .mk [] [] [] cs⟩] (text "TEMP") = ([⟨text "TEMP", .mk [] [] [] cs⟩], 0) by
    unfold FExtra.addTechnique FExtra.findTechnique; simp]
  simp only [List.modify_zero_cons, addPointers]

theorem note_all (e : FExtra.Extra) (h : text "AnimTargets" ∉ e.map (·.name)) (l : List (Text × Text)) : l.foldl noteTarget e = withTargets e l := by
  have hnext : ∀ (l : List (Text × Text)) (cs : List FExtra.Node), l.foldl noteTarget (e ++ [⟨text "AnimTargets", [⟨text "TEMP", .mk [] [] [] cs⟩]⟩]) =
      e ++ [⟨text "AnimTargets", [⟨text "TEMP", .mk [] [] [] (cs ++ l.flatMap targetNodes)⟩]⟩] := by
    intro l
    induction l with
    | nil => intro cs; simp
    | cons x l ih => intro cs; rw [List.foldl_cons, note_next e cs x h, ih]; simp
  cases l with
  | nil => rfl
  | cons x l =>
    rw [List.foldl_cons, note_first e x h, hnext]
    unfold withTargets
    rw [if_neg (by simp)]
    rfl

theorem noteChannel_back {id pointer : Text} (hp : Pointer pointer) {c : APlaced} (hc : GoodCurve c) (e : FExtra.Extra) : noteChannel e (channelNode id pointer c) = some (noteTarget e (pointer, fullQual c)) := by
  have ht : targetText pointer c = pointer ++ fullQual c := by unfold targetText fullQual; rw [List.append_assoc]
  unfold noteChannel
  rw [prop_raw (t := targetText pointer c) (by simp [channelNode, raw_cons, text_inj]) (by rw [ht]; exact plain_append hp.1 (fullQual_plain hc)), Option.bind_some, target_split hp hc, Option.map_some]

theorem writeChannel_names {fmt : ℚ → Text} {junk : APlaced → List Interpolation} {anim pointer : Text} {cs : List APlaced} {es : List Node} (h : writeChannel fmt junk anim pointer cs = some es) :
    ∀ k ∈ es, k.name = text "source" ∨ k.name = text "sampler" ∨ k.name = text "channel" := by
  unfold writeChannel at h
  obtain ⟨base, -, h⟩ := Option.bind_eq_some_iff.1 h
  obtain ⟨ids, -, rfl⟩ := Option.map_eq_some_iff.1 h
  intro k hk
  simp only [List.mem_append, List.mem_flatMap, List.mem_map] at hk
  rcases hk with (⟨x, -, hk⟩ | ⟨x, -, rfl⟩) | ⟨x, -, rfl⟩
  · exact .inl (source_names _ _ _ _ k hk)
  · exact .inr (.inl rfl)
  · exact .inr (.inr rfl)

theorem writeChannels_names {fmt : ℚ → Text} {junk : APlaced → List Interpolation} {anim : Text} {chs : List (Text × List APlaced)} {es : List Node} (h : writeChannels fmt junk anim chs = some es) :
    ∀ k ∈ es, k.name = text "source" ∨ k.name = text "sampler" ∨ k.name = text "channel" := by
  unfold writeChannels at h
  obtain ⟨ess, he, rfl⟩ := Option.map_eq_some_iff.1 h
  clear h
  revert he
  induction chs generalizing ess with
  | nil => intro h; obtain rfl := Option.some.inj h; simp
  | cons ch chs ih =>
    intro h
    rw [List.mapM_cons] at h
    obtain ⟨x, hx, h⟩ := Option.bind_eq_some_iff.1 h
    obtain ⟨xs, hxs, h⟩ := Option.bind_eq_some_iff.1 h
    obtain rfl := Option.some.inj h
    intro k hk
    rw [List.flatten_cons] at hk
    rcases List.mem_append.1 hk with hk | hk
    · exact writeChannel_names hx k hk
    · exact ih xs hxs k hk

/-- The channels of an element as they are noted. -/
theorem channels_noted (fmt : ℚ → Text) (junk : APlaced → List Interpolation) {anim : Text} (ha : Plain anim) (chs : List (Text × List APlaced)) (hc : ∀ ch ∈ chs, Pointer ch.1 ∧ ∀ c ∈ ch.2, GoodCurve c)
    {es : List Node} (h : writeChannels fmt junk anim chs = some es) (name : Text) (attrs : List (Text × Text)) (t : Text) (before after : List Node)
    (hb : ∀ k ∈ before ++ after, k.name ≠ text "channel") (e : FExtra.Extra) :
    ((Node.elem name attrs t (before ++ es ++ after)).children (text "channel")).foldlM noteChannel e = some ((targetsOf chs).foldl noteTarget e) ∧
      ((Node.elem name attrs t (before ++ es ++ after)).children (text "channel")).isEmpty = (targetsOf chs).isEmpty := by
  obtain ⟨plan, h1, h2, -⟩ := plan_of fmt junk ha chs hc
  rw [h1] at h
  obtain rfl := Option.some.inj h
  subst h2
  rw [children_append, children_append, children_other fun k hk => hb k (List.mem_append_left _ hk), children_other fun k hk => hb k (List.mem_append_right _ hk), List.nil_append, List.append_nil, plan_channels]
  have ht : targetsOf (plan.map fun p => (p.1, p.2.map (·.2))) = (planCurves plan).map fun x => (x.1, fullQual x.2.2) := by
    clear * -
    unfold targetsOf planCurves
    induction plan with
    | nil => rfl
    | cons p ps ih => simp only [List.map_cons, List.flatMap_cons, List.map_append, List.map_map] at ih ⊢; rw [ih]; rfl
  rw [ht]
  refine ⟨?_, by simp⟩
  have hx : ∀ x ∈ planCurves plan, Pointer x.1 ∧ GoodCurve x.2.2 := by
    intro x hx
    unfold planCurves at hx
    obtain ⟨p, hp, hx⟩ := List.mem_flatMap.1 hx
    obtain ⟨y, hy, rfl⟩ := List.mem_map.1 hx
    obtain ⟨g1, g2⟩ := hc (p.1, p.2.map (·.2)) (List.mem_map.2 ⟨p, hp, rfl⟩)
    exact ⟨g1, g2 y.2 (List.mem_map_of_mem hy)⟩
  generalize planCurves plan = l at hx
  clear * - hx
  induction l generalizing e with
  | nil => rfl
  | cons x l ih =>
    rw [List.map_cons, List.map_cons, List.foldlM_cons, noteChannel_back (hx x (by simp)).1 (hx x (by simp)).2, Option.bind_eq_bind, Option.bind_some, List.foldl_cons, ih _ fun y hy => hx y (by simp [hy])]

/-- An extra tree that is not transient is written as that of any entity. -/
theorem writeAnimEnt_eq (ov : Ov) (fmt : ℚ → Text) (now : DateTime) (s : Ent) (mid : List Node) (ht : s.target = []) :
    writeAnimEnt ov fmt now false s mid = (writeEnt ov fmt now (text "animation") s mid).map Prod.fst := by
  unfold writeAnimEnt writeEnt writeTargetExtra
  rw [if_pos ht]
  cases writeEntAsset ov fmt now s.asset with
  | none => rfl
  | some a => cases writeEntityExtra s.note s.extra <;> rfl

theorem withTech_name (s : Ent) (ts : List FExtra.Tech) (es : List FExtra.EType) (x : Text) (hx : x ≠ []) (h : x ∉ es.map (·.name)) : x ∉ (extraAfter s ts es).map (·.name) := by
  unfold extraAfter
  split
  · split <;> simp_all [FExtra.newExtra]
  · simp_all

theorem head_of (s : Ent) (h : Saveable s.extra) : ∃ ts es, s.extra = ⟨[], ts⟩ :: es := by
  obtain ⟨⟨t, h1, h2⟩, -⟩ := h
  cases he : s.extra with
  | nil => rw [he] at h1; simp at h1
  | cons u us =>
    rw [he] at h1
    simp only [List.head?_cons, Option.some.injEq] at h1
    subst h1
    obtain ⟨n, ts⟩ := u
    simp only at h2
    subst h2
    exact ⟨ts, us, rfl⟩

mutual
theorem tree_back (ov : Ov) {fmt rnd} (hf : Formats fmt rnd) (now now' : DateTime) (hn : GoodDate now) (junk : APlaced → List Interpolation) : ∀ (t : ATree), GoodAnimTree ov rnd junk t →
    ∃ n, writeATree ov fmt now junk t = some n ∧ n.name = text "animation" ∧ (ApartTree n → ∀ around, loadATree ov now' around n = some (treeAfter ov rnd now junk t))
  | .mk s mute chs kids, h => by
    unfold GoodAnimTree at h
    obtain ⟨rfl, g, hk⟩ := h
    obtain ⟨ts, es, hx⟩ := head_of s g.ent.extra
    obtain ⟨ks, k1, k2, k3⟩ := trees_back ov hf now now' hn junk kids hk
    obtain ⟨as, ns, h1, h2, h3, h4⟩ := ent_back ov hf now now' hn (text "animation") s ts es hx g.ent g.plain
    have ha : Plain s.id := g.ent.id
    have hnochan : ∀ k ∈ as ++ (ks ++ ns), k.name ≠ text "channel" := by
      intro k hm
      simp only [List.mem_append] at hm
      rcases hm with hm | hm | hm
      · rw [h1 k hm]; simp [text_inj]
      · rw [k2 k hm]; simp [text_inj]
      · rw [h2 k hm]; simp [text_inj]
    obtain ⟨cs, c1, c2⟩ := channels_loaded ov hf junk ha chs g.chans (text "animation") (entAttrs true s) [] as (ks ++ ns) [] hnochan
    have hcn := writeChannels_names c1
    refine ⟨.elem (text "animation") (entAttrs true s) [] (as ++ (cs ++ ks) ++ ns), ?_, rfl, fun hA around => ?_⟩
    · unfold writeATree
      rw [c1, Option.bind_some, k1, Option.bind_some, writeAnimEnt_eq _ _ _ _ _ g.plain, h3, Option.map_some]
    · have e1 : as ++ (cs ++ ks) ++ ns = as ++ cs ++ (ks ++ ns) := by simp
      have hl := h4 (cs ++ ks) [] (by
        intro k hm
        rcases List.mem_append.1 hm with hm | hm
        · rcases hcn k hm with hh | hh | hh <;> rw [hh] <;> simp [text_inj]
        · rw [k2 k hm]; simp [text_inj]) (by simp)
      rw [List.append_nil] at hl
      unfold ApartTree at hA
      obtain ⟨A1, A2⟩ := hA
      obtain ⟨cs', c1', c2'⟩ := channels_loaded ov hf junk ha chs g.chans (text "animation") (entAttrs true s) [] as (ks ++ ns) around hnochan
      rw [c1] at c1'
      obtain rfl := Option.some.inj c1'
      have hnote := channels_noted fmt junk ha chs (fun ch hm => ⟨(g.chans ch hm).1, fun c hc => ((g.chans ch hm).2 c hc).1⟩) c1 (text "animation") (entAttrs true s) [] as (ks ++ ns) hnochan
        (extraAfter s ts es)
      have hfree : text "AnimTargets" ∉ (extraAfter s ts es).map (·.name) := by
        refine withTech_name s ts es _ (by decide +kernel) fun hm => g.free ?_
        rw [hx]
        exact List.mem_map.2 (by obtain ⟨y, hy, e⟩ := List.mem_map.1 hm; exact ⟨y, List.mem_cons_of_mem _ hy, e⟩)
      have hkids := k3 A2 (as ++ (cs ++ ks) ++ ns ++ around) as cs ns h1 (fun k hm => by rcases hcn k hm with hh | hh | hh <;> rw [hh] <;> simp [text_inj]) h2 rfl
      unfold loadATree
      rw [hl, Option.bind_some, if_neg (by simp)]
      rw [e1] at A1 ⊢
      rw [c2' A1, Option.bind_some]
      rw [show (entAfter ov rnd now s (extraAfter s ts es)).extra = extraAfter s ts es from rfl, hnote.1, Option.bind_some, hnote.2, note_all _ hfree]
      rw [← e1, hkids, Option.map_some]
      have hex : extraOf s = extraAfter s ts es := by unfold extraOf; rw [hx]
      unfold treeAfter
      rw [hex]
      rfl
theorem trees_back (ov : Ov) {fmt rnd} (hf : Formats fmt rnd) (now now' : DateTime) (hn : GoodDate now) (junk : APlaced → List Interpolation) : ∀ (ts : List ATree), GoodAnimTrees ov rnd junk ts →
    ∃ ks, writeATrees ov fmt now junk ts = some ks ∧ (∀ k ∈ ks, k.name = text "animation") ∧ ∀ {all : List Node}, ApartTrees all → ∀ around as cs ns,
      (∀ k ∈ as, k.name = text "asset") → (∀ k ∈ cs, k.name ≠ text "animation") → (∀ k ∈ ns, k.name = text "extra") → all = as ++ (cs ++ ks) ++ ns →
      loadATrees ov now' around all = some (treesAfter ov rnd now junk ts)
  | [], _ => by
    refine ⟨[], by unfold writeATrees; rfl, by simp, fun _ around as cs ns h1 h2 h3 e => ?_⟩
    subst e
    have : ∀ l : List Node, (∀ k ∈ l, k.name ≠ text "animation") → loadATrees ov now' around l = some [] := by
      intro l
      induction l with
      | nil => intro _; unfold loadATrees; rfl
      | cons k l ih => intro hl; unfold loadATrees; rw [if_neg (hl k (by simp)), ih fun x hx => hl x (by simp [hx])]
    rw [this]
    · unfold treesAfter; rfl
    · intro k hk
      simp only [List.mem_append, List.not_mem_nil, or_false] at hk
      rcases hk with (hk | hk) | hk
      · rw [h1 k hk]; simp [text_inj]
      · exact h2 k hk
      · rw [h3 k hk]; simp [text_inj]
  | t :: ts, h => by
    unfold GoodAnimTrees at h
    obtain ⟨n, n1, n2, n3⟩ := tree_back ov hf now now' hn junk t h.1
    obtain ⟨ks, k1, k2, k3⟩ := trees_back ov hf now now' hn junk ts h.2
    refine ⟨n :: ks, ?_, ?_, fun {all} hA around as cs ns h1 h2 h3 e => ?_⟩
    · unfold writeATrees
      rw [n1, Option.bind_some, k1, Option.map_some]
    · intro k hk
      rcases List.mem_cons.1 hk with rfl | hk
      · exact n2
      · exact k2 k hk
    · subst e
      have hskip : ∀ (l r : List Node), (∀ k ∈ l, k.name ≠ text "animation") → (ApartTrees (l ++ r) → ApartTrees r) ∧ loadATrees ov now' around (l ++ r) = loadATrees ov now' around r := by
        intro l r
        induction l with
        | nil => intro _; exact ⟨id, rfl⟩
        | cons k l ih =>
          intro hl
          obtain ⟨i1, i2⟩ := ih fun x hx => hl x (by simp [hx])
          refine ⟨fun hp => ?_, ?_⟩
          · rw [List.cons_append] at hp
            unfold ApartTrees at hp
            exact i1 hp.2
          · rw [List.cons_append]
            rw [loadATrees, if_neg (hl k (by simp)), i2]
      have hl : ∀ k ∈ as ++ cs, k.name ≠ text "animation" := by
        intro k hk
        rcases List.mem_append.1 hk with hk | hk
        · rw [h1 k hk]; simp [text_inj]
        · exact h2 k hk
      have e : as ++ (cs ++ n :: ks) ++ ns = (as ++ cs) ++ n :: (ks ++ ns) := by simp
      rw [e] at hA ⊢
      obtain ⟨s1, s2⟩ := hskip (as ++ cs) (n :: (ks ++ ns)) hl
      have hA' := s1 hA
      unfold ApartTrees at hA'
      rw [s2, loadATrees, if_pos n2, n3 (hA'.1 n2), Option.bind_some, k3 hA'.2 around [] [] ns (by simp) (by simp) h3 (by simp), Option.map_some, treesAfter]
end

end Verif.FArc
