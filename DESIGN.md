# Formal model of fcollada in Lean 4: design

## 1. Layout

* `properties.jsonl` - the English properties (C01, C02, ...).
* `lean/Verif/<Area>.lean` - the executable model of an area of the code, every definition citing the
  file and lines in `/repo/FCollada` or `/repo/FColladaPlugins` it models.
* `lean/Verif/<Area>Spec.lean` (in a few areas `<Area>Terms.lean`) - the small independent specification: the terms
  in which the properties are stated.
* `lean/Verif/<Area>Lemmas.lean`, `<Area>Aux.lean` - helper lemmas.
* `lean/Verif/<Area>Props.lean` - the property theorems, each with an `example` showing a concrete
  non-trivial case that meets the hypotheses.
* `COVERAGE.md` - which lines of the code are modelled and which are not.
* `AXIOMS.md` - the axioms each property theorem depends on.
* `MANIFEST.json` - property -> theorem names and status.
* `seeded/LOG.jsonl` - mutation log: wrong programs tried against the theorems.

## 2. Modelling conventions

* **Undefined behaviour is an outcome.** A read or write outside a buffer, a NULL or dangling
  dereference, `back()` of an empty vector and so on yield `none` (or an explicit `ub` constructor);
  "no undefined behaviour" is then a theorem `f x ≠ none`, never an assumption.
* **`FUAssert(c, fallback)`** evaluates `c` and runs `fallback` when it fails, in debug and in release
  builds (FUtils/FUAssert.h); a failed assertion is modelled as taking the fall-back.
* **Build configuration**: CMake defaults on Linux: `LINUX` defined, `BUILD_UNICODE` off (`fchar` = `char`),
  little endian, 64-bit `size_t`, `char` signed.
* **Integers**: `Nat`/`Int` where the property is not about wrap-around, `BitVec n`/modular arithmetic where it is.
* **Floating point**: the arithmetic of vectors, matrices, curves and bounds is modelled over an exact ordered
  field or commutative ring, so those theorems are about the formulas, not about rounding. Each such
  definition says so.
* **Violations**: where the code does not satisfy the property, the negation is proved on a concrete
  witness (`..._violated`), a `..._partial` theorem gives the exact domain on which it holds, and section 5 records it.

## 3. Plan per property

| Id | Model | Proof |
|----|-------|-------|
| C01-C04 | `fm::tree` as a zipper machine: subtree plus list of ancestor frames stands for a node with its parent pointers; insert/erase loops climb the frames exactly as the C++ loops climb `parent`. | Invariant (balance factors correct, in-order keys strictly sorted) preserved by each climbing step; refinement of the in-order list to a finite map; Fibonacci bound on the depth; iterators as zipper moves over the in-order list. |
| C05-C06 | `fm::vector` as a buffer (list of cells of fixed capacity), size, and memmove/realloc steps that fail outside the buffer. | Simulation by an ideal list, by induction on the history. |
| C07 | `FMSort` recursion with explicit partition loop on arrays. | Loop invariants; permutation and sortedness by strong induction on the range. |
| C08-C09 | `fm::stringT` on top of a character vector with terminator. | Simulation by a list of characters; each search loop against first/last match definitions. |
| C10-C13 | `FUStringBuilderT` buffer, capacity and append functions; digit loops; parsers over character lists. | Simulation by concatenation; digit-loop lemmas by induction on the number. |
| C14-C15 | list parsers with cursor over an explicit memory (`none` outside). | Induction on the text. |
| C16-C18 | Base64 encode/decode on byte lists and 32-bit words. | Bit-vector identities for one group, induction on groups; witness for C18. |
| C19-C20 | CRC table and loop over `BitVec 32`. | Table by kernel evaluation of all 256 entries, linearity of the step, injectivity of the register update. |
| C21-C22, C28 | `FUUniqueStringMap` as map prefix -> set of numbers; object id table on top. | Invariant over histories; wrap-around witness. |
| C23-C24 | URI parser over character lists; path stack functions. | Lemmas on delimiter search; induction on stacks. |
| C25-C27 | validity tables and escaping loops; `CleanId` loop. | Per-character table facts by kernel evaluation, lifted by induction. |
| C29-C30 | Scene nodes as a finite graph with parent and child lists; iterator queues. | Acyclicity via rank/ancestor closure invariant; traversal by induction over trees. |
| C31-C33 | Trackers, owners and event handler lists as state machines. | Mirror invariants over histories. |
| C34-C35, C51 | Curves as key lists over a linear ordered field. | List induction, field arithmetic. |
| C36-C37, C48 | Polygon sets as face-size and index lists. | List induction; hash-table buckets as lists of chains. |
| C38-C42 | Boxes, spheres and matrices over ordered fields / commutative rings. | `ring`, `nlinarith`, case analysis. |
| C43 | Type descriptors as parent chains. | Induction on the chain. |
| C44 | Enumeration tables as finite functions on strings. | Kernel evaluation over the whole table. |
| C45 | Version triples of 32-bit numbers. | Arithmetic; witness for `>`/`>=`. |
| C46 | Path helper functions on character lists; path stack as list. | List induction. |
| C47 | Influence reduction loop over an ordered field. | Loop invariant: the kept list is the top part of the sorted input. |
| C49 | Date-time printing and fixed-offset parsing. | Digit lemmas. |
| C50 | Flag word as `BitVec 32`. | Bitwise extensionality. |
| C52-C53 | State machines over lists. | Induction on histories. |
| C58-C59 | The builder model of C10. | Witnesses; loop lemmas. |
| C60-C62 | Token counting; `ToFloat` over exact rationals; `FloatToString` on the text of the formatting library. | Against an independent token and literal specification. |
| C63-C66 | `ToVector*`, `ToMatrix`, `ToVector3List`, interleaved lists, `ToStringList`, `SplitTarget`, `ParseQualifier`. | Reader functions composed over the token specification; loop invariants per tuple. |
| C56-C57 | The string model of C08. | Lexicographic order lemmas; overlap witness. |
| C55 | The vector model of C05 counts objects whose storage was freed without destruction. | Invariant over histories; witness. |
| C67 | `GetRelativeUri` on top of C24. | Composition of the C24 lemmas. |
| C68-C69 | `Escape` on texts; document ids as C28. | Length argument; invariant of C28. |
| C70 | Handlers as folds over the reported levels. | Induction. |
| C71 | Scene.lean: `release` (destructor and tracker notification) | invariant with the set of nodes under destruction, induction on a rank |
| C74 | Translation maps as sorted association lists; `ApplyUniqueIndices` as nested copy loops. | The relation of old and new indices is characterised for every corner; the copies never conflict because the new index determines the old one. |
| C75 | `CurveClip`: the keys of a curve, its clips, their offsets and the selected clip. | Invariant over histories; evaluation commutes with moving all keys. |
| C76 | `GeoRot`: `Decompose`, `Recompose` over the reals, `atan2` as the argument of a complex number. | The columns divided by the scale are orthonormal; cofactor equations give the entries that `Decompose` does not look at. |
| C77 | `GeoRot`: `LookAtMatrix`. | Vector identities. |
| C78 | `Quat`: product, conversions from and to matrices; specified by Mathlib's `Quaternion`. | Polynomial identities; the ten products of components determine a quaternion up to sign. |
| C79 | `Quat`: `slerp`, with division by zero as a separate outcome. | Trigonometric identities. |
| C80 | `Quat`: `ToAngleAxis`, `ToEuler`, `PatchEuler`, with loops bounded by a number of turns. | `atan2` on vectors of known length; induction over the turns. |
| C81 | `CurveMulti`: `MergeCurves` and the sampling of curves of several dimensions. | Linear curves are lines between merged keys; the binary search. |
| C54 | `Lib`: libraries over the ownership model of C32, `FindDaeId` and `FindEntity` over the id model of C28. | Induction on the history; ranks for the search. |
| C82 | `Lib`: `SetSubId` on the scene graphs of C29. | Weights for the walk upwards, ranks downwards, pigeonhole. |
| C73 | Pack: the packing map, the copy loops, the largest index | loop invariant (numbers by first appearance); composed with C37 and C74 for meshes |
| C72 | Fit: the loops of `FitIndexBuffers` over the polygon sets of C48 | loop invariants: the sets made so far have the faces up to the current one; index lists by offset |
| C83 | MeshEdit: inputs with identities, the lists of trackers of the sources, `OnObjectReleased`, `AddVertexSource` | invariant of histories: each input tracks its source twice, first with its pointer; then the code that moves lists is never run |
| C84 | MeshEdit: `Clone` of meshes and polygon sets over the sets of C48 | loop invariant over the inputs, index lists by offset |
| C85 | Xform: the six types of transforms over the real matrices of GeoRot, `ToMatrix`, `AddTransform`, `CalculateWorldTransform` over the scene graphs of Scene | induction on the list of transforms; rank of reachable scene graphs |
| C86 | Xform: `IsInverse` | case analysis with the rotations of C42; witnesses |
| C87 | Xform: the array and the matrix of a skew | polynomial identities |
| C88 | NodeClone: `Clone` of nodes as trees of new nodes | induction on the rank, places as lists of child indices |
| C89 | AnimList: values with buffer identity and capacity, helpers ordered by array element, `BinarySearch`, `OnInsertion`, `OnRemoval`, `OnPotentialSizeChange` and all calls that change the list | refinement of a list of cells (value, helper); invariants over histories; witnesses |
| C90 | Animated: value pointers, qualifiers and lists of curves, `FindQualifier` on top of `ParseQualifier`, `AddCurve`, `RemoveCurve`, clones, custom animated values, the tables of qualifiers of all parameter types | case analysis; tables by evaluation in the kernel |
| C91 | Animated: `Evaluate` as writes to a memory of floats, `SetCurrentTime` over documents with references, `CreateMultiCurve` on top of CurveMulti | sequences of writes; induction on a rank of the documents; C81 |
| C92 | Extra: trees as an inductive type, calls at paths, histories; `CleanName` on texts | invariant over histories, induction on paths |
| C93 | Extra: contents and child nodes | invariant over histories whose calls depend on the state |
| C94 | Extra: `Clone` of nodes (mutual recursion), techniques, types and extras | mutual induction on trees; update-or-add lists by name |
| C95 | EntityRef: one home document with references and placeholders, other documents with entities, a file system as parameter | explicit effect of `SetPlaceHolder`; histories |
| C96 | EntityRef: placeholders, trackers, release of documents | invariant over histories; exact condition for the release of a document |
| C97 | EntityRef: release of entities, documents, placeholders, references | invariant over histories |
| C98 | Volume: FMVolume and CalculateVolume over ℝ | Lebesgue measure of the solids: Fubini, scaling, cross sections |
| C99 | Phys: meshes as lists of position sources, chain of convex hulls with fuel | bounding boxes from C38; induction over sets and chains |
| C100 | Phys: shapes with their optional parts | case analysis; exact condition as an equivalence |
| C101 | Phys: heap of materials, holders with tracked pointer and flag | invariant over histories |
| C102 | Phys: parameters, constraints, instances, models, scenes as values | case analysis, induction over lists |
| C103 | Color: bytes as naturals, floats over an ordered field; the round trip also in single precision | floor arithmetic; all 256 bytes by kernel computation |
| C104 | Color: conversions over an ordered field | specification by piecewise linear hue; case analysis over sectors |
| C105 | Scalar: loops with fuel, fmod over a floor ring, 32-bit integers with overflow | induction, Archimedean property; integer division |
| C106 | Scalar: vectors over an ordered field or ℝ | polynomial identities, uniqueness |
| C107 | Ctrl: entities by number, targets of skins by identifier, loops with fuel | rank that decreases along chains, kept by every legal call; determinism of chains |
| C108 | Ctrl: kinds and vertex counts of geometries, morph targets with identities | same invariant; refinement of the comparison to a relation between the ends of chains |
| C109 | Inst: the queue of ancestors and the search for identifiers, with fuel, over the scene graphs of C29 | induction on the height; each round replaces the queue by the parents |
| C110 | Inst: joints as numbers, roots as parsed URIs | induction over the list; round trip through the URI parser of C23 |
| C111 | InstMat: lists of material instances and of polygon sets with symbols and offsets | first-match searches; the digits at the end of a symbol tell identifier and offset apart; induction over the sets |
| C112 | InstMat: the four classes of instances, `Clone` into each | case analysis over the classes, induction over the material instances |
| C113 | Effect.lean: the searches for parameters by semantic or reference, one and all, over geometry instances, material instances, materials, effects, profiles and techniques | each is `find?` or `filter` over the list of parameters shown, by induction |
| C114 | Effect.lean: GetParam, GetAnimatedColor/Float, GetDefaultColor/Float | case analysis over the places against one definition of the nearest place |
| C115 | Effect.lean: SynchronizeAnimatedParams as a fold of first-match writes over the twelve names | names are distinct, so the writes are independent; idempotence through the type of the value |
| C116 | Effect.lean: GetOpacity, GetReflectivity | direct; the negation on a blue colour |
| C117 | Tex.lean: SetImage, GetImage, GetSampler, AddTexture, release of samplers and images | invariant over every history: each surface and sampler carries the sid of its one image; each operation preserves it and its effect on what textures show is exact |
| C118 | Tex.lean: FindImage, AddImage, RemoveImage with the shift of the cube map | index arithmetic over lists without duplicates |
| C119 | Pass.lean: dataSizeTable, the switch of SetDefaultValue as writes into a byte array, constructor, Clone | the documented layouts as a second table generated from the comments; adjacent writes overwrite any content; the two tables compared over all 108 rows by the kernel and lifted to every content |
| C120 | Pass.lean: AddShader, AddVertexShader, AddFragmentShader, AddRenderState, FindRenderState, bindings, Clone of shaders and passes | invariant over every history: sorted, permutation of the log of additions, stable for each type; induction over the loops of Clone |
| C121 | Std.lean: ConvertVector, PrepareFunctor and the seven functions, SetCurrent, the wanted values | IsRotation as linear and keeping scalar and vector products; all pairs of axes by cases, for every vector |
| C122 | Std.lean: the conversion of the six types of transforms, on Xform.lean | `Carries`: m'(moved p) = moved (m p), for every point; by cases and polynomial identities, then induction over the list |
| C123 | Std.lean: VisualSceneNodeIterator, GetHierarchicalAssets, GetAssetFunctors, ResetAsset, the loops over nodes, skins, geometries and cameras | the order of the iterator is free of repetitions and is the set of nodes in the scenes (C30); chains of parents stay in their scene; induction over the order; loops over sources by index arithmetic |
| C124 | Std.lean: the bind-poses, on the inverse of C41 | the converted inverse carries the inverse; sums and multiples of points by linearity |
| C125 | Std.lean: SetPivotTransform with the removal of an old pivot | the product of the added rotations is the turn, for all pairs; cancelling pairs by the group law of rotations (C42) |
| C126 | CurveConv.lean: ConvertValues, ConvertInputs, on the evaluation of C34 | one lemma for keys mapped by two affine maps: the search, the infinities and the segments commute with them |
| C127 | StdAnim.lean: ConvertAnimationVector3, ConvertAnimationFloat, the CONVERT macros and the loops over sources of meshes, with curves by identity | the curves of component i end at the component its axis is turned to, scaled once; frame lemma for all other values; ten steps composed for matrices; induction over the vertices |
| C128 | FxParam.lean: the classes of effect parameters, `Clone`, `Create` of the factory | cases on the class; the images of a surface are added one by one, by induction |
| C129 | FxParam.lean: `IsValueEqual`, `Overwrite` | an inductive relation for the same value, equivalent to the comparison by cases |
| C130 | FxClone.lean: FX profiles, techniques, codes, on the passes of C119-C120; the two searches | the lists are cloned in order, by induction; distinct sub ids are found again in the same place |
| C131 | FxClone.lean: standard profiles, textures, with a table of the parameters by number | what the table holds below the counter is as before; each copied sampler tracks the surface of the original |
| C132 | FxClone.lean: materials and the library of effects | cases on the two ways of cloning |
| C133 | Spline.lean: `ToBezier` of linear splines | the repeated vertices are cut into segments by induction; a segment with doubled ends is the side at 3t^2-2t^3, onto by the intermediate value theorem |
| C134 | Spline.lean: `ToNURBs`; SplineSpec.lean: Bernstein and Cox-de Boor | the basis functions of the clamped knot vector are the Bernstein polynomials; the loop makes the segments by induction |
| C135 | Spline.lean: geometric splines, their operations, copies and checks; geometries | invariant over the operations; the loop of the copy by induction; arithmetic modulo 2^64 |
| C136 | Ent.lean: assets and contributors | the copy is the asset but for one date, by unfolding; lists by induction |
| C137 | Ent.lean: the entities that have no or a short `Clone` | cases on the class |
| C138 | Ent.lean: nodes with counts, entities with targets, the operations | invariant over all histories: the count is the number of live entities with the target |
| C139 | Ent.lean: the setters of the views | case split on the flags and the test for zero |
| C140 | Penumbra.lean: `LoadPenumbra` over a heap of curves | the angles by cases; the animated ones by the conversion of values (C126) |
| C141 | Penumbra.lean: merging, search for changes of sign, exchange of keys | induction over the merged keys; the bisection halves an interval on which the penumbra is a line, so it ends by the Archimedean property |
| C142 | Arc.lean: elements, attributes, contents, sources | the text of a list of numbers is parsed token by token (C63); induction over the list |
| C143 | ArcExtra.lean: `WriteExtra`, `LoadExtra` | induction over nested nodes, then over techniques and types |
| C144 | ArcAsset.lean: `WriteAsset`, `LoadAsset` | the loader is a fold over the elements; each written element sets its field |
| C145 | ArcEntity.lean: `WriteToEntityXMLFCDEntity`, `WriteTargetedEntityExtra`, `LoadEntity`, `LoadTargetedEntity` | the parameter that is pushed for the note or the target is found again in the reloaded tree (C143) |
| C146 | ArcPoly.lean: `WriteGeometryPolygons`, `LoadGeometryPolygons`, the inputs and their shared lists of indices | invariant over the input elements (owners of offsets), then induction over faces and holes: after each the lists hold a prefix of the indices |
| C147 | ArcMesh.lean: `WriteGeometrySource`, `LoadGeometrySource`, `WriteGeometryMesh`, `LoadGeometryMesh` | the sources loaded so far are those of the mesh with the types of the used ones: invariant over the inputs and the polygon sets, on top of C142, C143 and C146 |
| C148 | ArcSid.lean: `AddNodeSid`, `FindHierarchyChildBySid` | the search finds exactly the sub-ids of the tree, by induction over the tree; the loop over the numbers by induction, and the pigeonhole principle for the 99 candidates |
| C149 | ArcTrans.lean: `WriteTransform…`, `WriteTransformBase`, `LoadTransform…`, `GetTransformType` | the text of each transform is the list of its numbers; the sub-ids in use grow with each transform: invariant over the list, on top of C148 and C12 |
| C150 | ArcScene.lean: `WriteSceneNode`, `LoadSceneNode`, `LoadFromExtraSceneNode`, `WriteEntityInstance` of nodes | mutual induction over the tree and the lists of children; the ids known to the document are those of the elements before, in document order; extra trees by the lemmas of C145, transforms by C149 |
| C151 | ArcCam.lean: `WriteCamera`, `LoadCamera`, `FindParameters`, with the setters of C139 | the common part by C145; case analysis over the views in use |
| C152 | ArcLight.lean: `WriteLight`, `LoadLight`, `LoadPenumbra` without animation (C140) | the parameters added to the extra tree are an entity for C145 with a longer technique; list lemmas for adding, finding and releasing them; case analysis over the types |
| C153 | ArcSkin.lean: `WriteSkinController`, `LoadSkinController`, `FindChildById` | the texts of counts and indices are read back by C14/C15-style token lemmas; induction over vertices and pairs with the number of the next weight; for any file an invariant of the loops over the pairs |
| C154 | ArcMorph.lean: `WriteMorphController`, `LoadMorphController`, `LinkMorphController`, `SetBaseTarget` over a table of geometries and controllers | the sources by C142; case analysis over the base; list filtering; inversion of the loader for any file |
| C155 | ArcDoc.lean: `Import` up to the linking, `ExportDocument`, `LoadLibrary`, `WriteLibrary` over elements for the entities | insertion by rank keeps the order of each kind (induction over the file); the loading of libraries as one fold over all members |
| C156 | ArcInst.lean: `WriteEntityInstance`, `WriteGeometryInstance`, `WriteControllerInstance`, `WriteMaterialInstance` and their loaders over elements | the address of an id is parsed back; the children by name of an appended list; a second loading of an extra tree appends to each technique (induction with the types done so far) |
| C157 | ArcAnim.lean: `WriteAnimationChannel` and the writers of sources, samplers and channels, `LoadAnimationChannel`, `FindChildByIdFCDAnimation` over elements; the values of memory that was not set are a parameter | what is written is a plan of curves with ids; each source is read back (induction over the numbers of the text); elements are found since no CRC-32 collide; the channels are kept by induction |
| C158 | ArcLink.lean: `FindAnimationChannels`, `ProcessChannels`, `LinkDriver`, `LinkAnimation` over trees of animations; `WriteAnimatedValue` as the qualifiers it gives | one channel adds its curve to the float whose qualifier it has (cases on the kind of naming); folds over the channels by induction; the channels of other values with the same pointer are skipped; composed with C157 |
| C159 | Joint.lean: `LinkControllerInstance` and `LinkTargetedEntity` over the scene graph of C29 and the instances of C110 | the searches by identifier and sub-id end and give a node with the name below the node (induction on the rank of the graph); induction over roots and joints; the round trip uses that every joint is below a root joint (C110) |
| C160 | ArcClip.lean: `WriteAnimationClip` and `LoadAnimationClip`; entities without target in ArcPlainEnt.lean | the list of animations is the curves' animations without repetitions (induction); round trip of the common part with further attributes; the loss on saving again for every loaded clip |
| C161 | ArcTree.lean: `WriteAnimation` and `LoadAnimation` with child animations and the targets noted in the extra tree | mutual induction over trees and lists of trees, with C145 and C157 for one animation |
| C162 | ArcSurf.lean: `WriteEffectParameterSurface`, `LoadEffectParameterSurface`, the linking of images | case analysis over the methods; induction over the images with the lists of attributes; finite tables of names |
| C163 | ArcParam.lean: the functions that write and load the parameters of each class; `GetEffectParameterType`; the linking of samplers | case analysis over the classes with the round trips of numbers, texts and C162; induction over the annotations |
| C164 | ArcState.lean: `WriteEffectPassState`, `LoadEffectPassState`, the names of states and enumerated values, generated from the C++ text | the two tables are compared with the documented layout row by row (finite), and the round trip is proved for any table of contiguous fields by induction |
| C165 | ArcPass.lean: `WriteEffectPass`, `WriteEffectPassShader`, `LoadEffectPass`, `LoadEffectPassShader`, `AddNodeSid` on a new element | the round trip by induction over states (with the order of C120) and shaders; the search for a free sub-id is that of ArcSid.lean |
| C166 | ArcFx.lean: `WriteEffectCode`, `WriteEffectTechnique`, `WriteEffectProfile(FX)` and the functions that load them; the translation of file names is a parameter | the sub-ids in the tree are followed through every write (induction over codes, passes, techniques); the round trip and the distinctness of the sub-ids follow |
| C167 | ArcStd.lean: `WriteEffectStandard`, `WriteTexture`, `LoadEffectStandard`, `LoadTexture` and the three functions that parse textured parameters; no animations | one lemma for each of the seventeen elements written under a condition; the state after each is given, the last one is compared with the specification channel by channel |
| C168 | ArcImg.lean: `WriteImage`, `LoadImage`, `SetFilename`, `WriteMaterial`, `LoadMaterial` with the models of URIs, root paths and file name escapes; no effects of other documents | the relative and the absolute case of the path are lemmas on the model of C24; then the lemmas on entities, parameters and references |
| C169 | ArcEff.lean: `WriteEffect`, `LoadEffect`, the types of profiles; the samplers that the writing of textures adds are left out | every element written has only sub-ids without `%` (ArcExtraSids, ArcFxWhole, ArcStdWhole), so that the sub-ids of the next profile are found; induction on the profiles |
| C170 | ArcTexLink.lean: `LinkTexture`, `LinkEffectParameterSampler` with the scopes of `LinkEffect`, `LinkEffectProfile`, `LinkEffectStandard`, `LinkEffectTechnique`, `LinkMaterial`; pointers are positions in lists; the parameters that `SetImage` makes are those of C117 | C169 gives the parameters and textures that are loaded; each reference is then found because references are different |
| C171 | ArcLinkData.lean: `documentLinkDataMap` and `loadedDocumentCount` of FArchiveXML as one state, an import as a list of steps (note, read, refer, fetch), nested imports with fuel; what the records contain is left out | induction over steps and fuel; a fetched file always clears the records, the count never falls |
| C172 | ArcSpline.lean: `WriteGeometrySpline`, `WriteSpline`, `WriteNURBSSpline`, `LoadGeometrySpline` and the three loaders, on the elements of C142 and the splines of C133 | the sources of C146 are read back through their ids; induction over the splines |
| C173 | ArcSolid.lean: the writers and loaders of the seven analytical shapes, on the elements of C142 | each number is read back by the lemmas of C63; the plane is proved to be loaded with its numbers moved by one place |
| C174 | ArcPShape.lean: `WritePhysicsShape`, `LoadPhysicsShape`, `WritePhysicsMaterial`, `LoadPhysicsMaterial` | one lemma for each kind of child, induction over the transforms; the volume is a parameter |
| C175 | ArcRigid.lean: `WritePhysicsRigidConstraint`, `LoadPhysicsRigidConstraint` without the common part of the entity and the sub-id | one lemma for each end by induction over its transforms, the values of the technique by their names |
| C176 | ArcBody.lean: `WritePhysicsRigidBodyParameters`, `LoadPhysicsRigidBodyParameters`, `WritePhysicsScene`, `LoadPhysicsScene` without instances and animations | the shapes by induction with C174, the material by C174, the other values by their names |
| C177 | ArcWhole.lean: `ExportDocument`, `Import` up to the linking, `WriteLibrary` and `LoadLibrary` with cameras, lights, images, materials, physics materials and physics scenes as the models of their own files | the round trip of libraries as lists of elements (C155) composed with that of each kind of entity (C151, C152, C168, C174, C176), by induction over each library |
| C178 | ArcGeo.lean: `WriteGeometry`, `LoadGeometry`, `WriteController`, `LoadController` | the common part of an entity (C169) composed with meshes (C147), splines (C172), skins (C153) and morphers (C154); the elements of the common part are found not to be taken for a body |
| C179 | ArcPtr.lean: `CalculateNodeTargetPointer` on places of a tree | addresses as lists of names by an inductive relation, induction over places from the root, injectivity of joining names without slashes |
| C180 | Hull.lean: `LinkGeometryMesh` for all geometries, `FindConvexHullOfMesh`, `Clone` as appending | each step changes the mesh at its place only (induction over the library); the search by an inductive relation and a rank |
| C181 | Plugin.lean: `FindArchivePlugin` over the address and path models, the extra extensions of the XML archive, the plug-in passes before and after saving and loading | first match by `findIdx?`; invariant over the calls; each technique alone |
| C182 | Load.lean: `Import` as the flow of its status and `LoadLibrary`, with the answers of `CancelLoading` as a sequence; `LinkSceneNode` over trees | induction over libraries and their children with the number of questions asked; the linking as a fold |
| C183 | ArcPInst.lean: saving and loading of instances of physics models, of rigid bodies and of rigid constraints | the round trip of rigid body parameters (C176) under two more elements; induction over the list of instances |
| C184 | ArcPModel.lean: saving and loading of physics models with their bodies and constraints; the instances in the order of a map by addresses, which are any function | three inductions over the children; the round trips of C175 and C176; permutations of a sorted list |
| C185 | ArcCustom.lean: the qualifiers that are made from the channels, and the linking of the curves, on the animated values of C90 and the linking of C158 | the place of a name in a list; inductions over the channels and the curves |
| C186 | ArcLayers.lean: what the shown visual scene writes for the layers and times, in front of its extra tree; the reading is that of C150 | the loaded extra tree given in full; inductions over the layers; the round trip of C150 with another extra tree |
| C187 | SampleAnim.lean: the merging of the key times, the added times for large rotations, the lists of animated values and angles, the sampling | inductions over the merged lists and over the curves; the misaligned angles as a witness |
| C188 | Infl.lean: the largest packed index, the resizing of the array, the two loops that set the places | invariant of the places over the vertices and their new vertices |
| C189 | SubIds.lean: the scopes of instances in each other, the nodes of a scene, one set of unique names (C21) for each scope | induction over the instances with the histories of C21 |
| C190 | Scheme.lean: the map of callbacks with the heap of their objects, the loop over the openers | the objects of all managers are different and exist, kept by each operation; inductions over the maps |
| C191 | RegDoc.lean: the open documents with their placeholders, the registering of a loaded document | invariant over the opened documents |

## 4. Trusted base

* Lean 4.33.0's kernel.
* The axioms `propext`, `Classical.choice`, `Quot.sound` (no others; no `native_decide`, no `bv_decide`, no added axioms).
  `AXIOMS.md` lists for each property theorem which of them it depends on.
* The reading of the C++ sources into the model; each definition cites the lines. `COVERAGE.md` lists, file by file,
  the lines that are modelled; everything else is not. Of the COLLADA archive plug-in (`/repo/FColladaPlugins/FArchiveXML`)
  the parts that C142 and later properties name are modelled, as functions to and from trees of elements with
  attributes and text; that libxml2 writes such a tree to a file and parses the file to the same tree, up to blanks
  between elements, is trusted. In particular not modelled: the plug-in manager, the reading and
  writing of files, the parts of libxml2 behind the XML functions, the error and debug output beyond the levels and
  handlers, threads, memory exhaustion and the test programs.
* Tables that are generated (enum names, render states) were generated by scripts from the C++ text; the comparison
  of the model's table with the specification's table is by the kernel.
* The C++ compiler, the standard library, libxml2 and the operating system are not modelled. Floating point arithmetic
  is replaced by exact arithmetic, except where a definition says otherwise.

## 5. Findings

Each finding is proved on a concrete witness by the theorem named.

* **C03** `--` from `end()` of an `fm::map` dereferences the header's missing child (`map_prev_end_undefined`). The
  implicit copy constructor of `fm::tree` shares the root (both destructors release it), and self-assignment clears the
  map; the model covers `operator=` between distinct maps only.
* **C16** decoding the empty text is undefined (`base64_roundtrip_empty_violated`).
* **C18** unpadded text, or a trailing ignored character, makes the decoder read past the end of the text
  (`base64_decode_safe_violated`, `base64_trailing_blank_violated`).
* **C06** `v.push_back(v[i])` on a full vector reads released storage, `v.insert(p, v[i])` with `i >= p` inserts the wrong
  value (`vector_push_own_violated`, `vector_insert_own_violated`).
* **C55** `vector::reserve` leaks class-type elements on every reallocation (`vector_lifetime_violated`).
* **C08** `append(char)` after `clear()` or after an empty `substr` writes through a missing terminator
  (`string_append_after_clear_violated`, `string_append_after_substr_violated`); `resize(n, c)` keeps the old terminator in
  the middle, so `"a".resize(3, 'x')` reads as `"a"` (`string_resize_fill_violated`).
* **C09** characters above 127 are never found (`string_find_negative_violated`); `find_first_of` misses sets longer than the
  buffer, `find_last_of` is wrong for sets of two or more characters, `find(c, npos)` reads outside the buffer.
* **C56** the order is on signed characters with the terminator, so `"a\xE9"` sorts before `"a"`; `string_lt_ascii` is the
  usual order on ASCII texts.
* **C57** inserting a string into the middle of itself copies overlapping storage (`string_insert_self_violated`).
* **C58** `index` looks one character past the text: it finds a popped character or reads outside a full buffer; `rindex`
  never looks at position 0 (`builder_index_violated`, `builder_rindex_violated`).
* **C59** `append(uint64)` truncates to 32 bits (`builder_u64_violated`).
* **C12** `val * 10 + c - '0'` overflows an `int` for the 97 values of largest magnitude (`int32_overflow_violated`).
* **C13** `appendHex` writes integers of several bytes lowest byte first, `HexToUInt32` reads highest first
  (`hex_multibyte_violated`).
* **C14** a carriage return is skipped before an integer but does not end one; blanks alone read as one zero
  (`list_tokens_violated`).
* **C60** `CountValues` tests `*sz > 0` on a signed character (`count_values_violated`).
* **C15** `ToFloat` on the texts "I" and "IN" steps over the terminator (`float_overread_violated`).
* **C61** "1e+5" reads as 1; behind an exponent a carriage return swallows the next number (`float_literal_violated`).
* **C62** the local `infinity` of `ToFloat` is reset before it is tested, so "INF" reads as 0; NaN is written "nan"; floats
  below 2^-23 are written "0" (`float_print_violated`). The builder's implicit copy shares its buffer (both destructors
  release it); the model has no copy.
* **C49** from year 10000 on the text is cut at 20 characters and the month reads as 0 (`datetime_violated`).
* **C64** an incomplete tuple over old elements keeps a stale value; a NULL first array and arrays of unequal lengths are undefined
  behaviour (`interleaved_violated`).
* **C65** `ToStringList` appends each word to the old element of a non-empty target (`string_list_violated`).
* **C66** one-character targets are never split (`split_target_violated`).
* **C21** "a4294967294", "a", "a", "a" are given "a4294967295" twice: `~0` both means "no suffix" and is a suffix (`unique_names_violated`). Line 54
  of FUUniqueStringMap.cpp (suffix 2) is dead: the next line overwrites it, so the first duplicate of "a" is "a1".
* **C22** with "a01" in the map, "a1" and "a4294967297" are reported as contained, and erasing "a1" removes "a01" (`contains_violated`).
* C23: `query = substr(q + 1, f - q)` keeps the `#` when a fragment follows; user information is never split from the host name; a path that
  does not name a file gets one more slash (`http://h/` has path `//`, `#id` has path `/`); `a#x?y` has path `a#x`.
* C24: `MakeRelative` for a document in the root folder reads the front of an empty list.
* **C25** `%` is in the table of valid characters: content "%41" comes back as "A", "100%" as "100" (`content_violated`).
* **C28** `Clone` into an object that has an id leaves the clone's flag set and drops the id from the name map: the original is given the same id
  again (`ids_violated`). A second empty id becomes "1", not a valid XML id (`empty_id_violated`).
* **C68** `Escape` falls through: every character gets `%` and its decimal code, plain ones included (`uri_escape_violated`).
* **C31** A tracked list given an object twice, a copy-constructed `FUTrackedPtr` and a copied or assigned `FUTrackedList` keep the released
  object: a dangling pointer (`tracked_violated`).
* **C33, C52** `ReleaseHandler` erases one element: with several handlers of the object stale elements remain, with none `erase(end())` is
  undefined (`event_violated`, `errors_violated`).
* **C45** `operator>` and `operator>=` are swapped: a version is newer than itself (`version_violated`).
* **C32** An object pushed into a second container is refused by `AttachObject` but listed all the same; `FUObjectRef::operator=(FUObjectRef&)`
  leaves the old reference as the owner; `ref = ref.ptr` releases the object and keeps its address. All end in the use of a freed object
  (`ownership_violated`).
* **C71** The destructor of a scene node empties its own list of parents before it looks for other parents of a child, so the test for shared
  children never succeeds: children shared with other nodes are deleted (`release_violated`).
* **C30** With instances, the pre-order leaves out every instanced node that has children or instances (`FCDSceneNodeIterator.hpp` 92-97 pushes it on
  the processing queue only; `preorder_violated`). Line 94 may reallocate the processing queue and line 95 then writes through the old reference, for
  an instance eight levels deep (`deep_violated`). Nothing prevents two nodes from instancing each other, and the traversal then never ends
  (`cycle_violated`).
* **C48** `RemoveFace` passes a length as the end of the range to `erase` (FCDGeometryPolygons.cpp 110): the second face is not removed although its
  indices are (`remove_second_violated`), later faces give a reversed range (`remove_third_violated`); the list of holes is not updated
  (`remove_holes_violated`). An empty first face leaves the index lists of all later faces empty (`empty_face_violated`).
* **C37** A polygon set that uses one source in two inputs (as with two texture coordinate channels in one source): `GenerateUniqueIndices` finds
  only the first of the two inputs (FCDGeometryPolygonsTools.cpp 718) and copies its values; both inputs get the new indices, so what the second one
  reached is lost. `FUnify.twice_violated`.
* **C74** The check in the last loop of `ApplyUniqueIndices` (FCDGeometryPolygonsTools.cpp 901) is the wrong way round: with two polygon sets, the
  first gets the indices of both, and the second reads behind the end of the list. `FUnify.reset_violated`. The new number of values is computed
  from the first translation map only (862): if a vertex has no value in the first source, values of other sources are written behind their end.
  `FUnify.buffer_violated`.
* **C53** `AddChildSorted` puts an element that should come first at the end, if the first child of the parent is a text or a comment
  (FUXmlWriter.cpp 236-243). `XmlSort.text_violated`.
* **C47** `ReduceInfluences` divides by the new total (FCDSkinController.cpp 182), which is zero if all kept weights are: the weights become NaN.
  `Skin.zero_violated`. If no influence reaches the minimum weight, the vertex is left without any. `Skin.total_violated`.
* **C35** At the time of a key behind a step segment, `Evaluate` still gives the former value, since the search stops at the first key that is not
  earlier (FCDAnimationCurve.cpp 367; `Curve.step_violated`); behind a Bezier segment, it gives an inexact value (`bezier_violated`). Linear
  infinity before the first key has the wrong sign (332; `pre_linear_violated`). Two keys at one time give 0/0 (`same_time_violated`). The second
  control point of a TCB segment takes the value of the key for its time (457; `tcb_violated`).
* **C75** `SetCurrentAnimationClip` moves the keys, but not the tangents of Bezier keys (`bezier_shift_violated`). A new offset of the selected clip
  has no effect (`changed_offset_violated`). A clip added with `AddClip` has no offset, and selecting it reads behind the end of the list
  (`add_clip_violated`). `Clone` lists each cloned clip twice and appends the offsets to those registered, so that the second clip has the wrong
  offset (`clone_violated`); a clone of a moved curve does not know that it was moved (`clone_selected_violated`).
* **C42** `AxisRotationMatrix` does not normalise an axis whose squared length is within 0.0001 of 1, and then scales (`Geo.axis_nearly_unit_violated`);
  `EulerRotationMatrix` drops angles below 0.0001 (`euler_small_violated`). `FMMatrix33::RotationMatrix`, documented as counter-clockwise, rotates
  clockwise with the conventions of `TranslationMatrix` and `operator*` (`rotation33_clockwise_violated`).
* **C76** `Decompose` finds the angles of x*y*z order, but `Recompose` multiplies in z*y*x order (FMMatrix44.cpp 173-174), so the round trip fails as
  soon as two angles are not zero (`Geo.recompose_order_violated`). Within 0.0001 of the pole, the rotation is rounded to the pole
  (`decompose_pole_violated`).
* **C77** If the view is parallel to `up`, `LookAtMatrix` takes the X axis as the sideways direction, except for `up` equal to it: with `up` the
  negative X axis the matrix is singular, and for other directions its axes are not orthogonal (FMMatrix44.cpp 402-409;
  `Geo.lookAt_parallel_violated`).
* **C78** `operator*` of quaternions multiplies in the reversed order, so `operator*` with a vector computes the conjugate of q times v times q, the
  inverse rotation of `ToMatrix` (FMQuaternion.cpp 90-94; `Geo.quat_vector_violated`).
* **C79** `slerp` between opposite quaternions divides by zero; between nearly equal ones it gives the first, even at the end (`Geo.slerp_violated`).
* **C80** In `ToEuler`, the factor 2 is missing in the angle around X (FMQuaternion.cpp 166; `Geo.toEuler_x_violated`), the angle at the lower pole
  has the wrong sign (159; `toEuler_south_violated`), and near the poles the angles are rounded (`toEuler_pole_violated`). `ToAngleAxis` loses the
  axis of rotations below 0.0002 (`angleAxis_violated`).
* **C38** `Include` of a point sets only the minimum of a reset box (FUBoundingBox.cpp 108-113: `else if`), so a first point above all others in one
  direction is lost (`Geo.box_reset_partial` gives the exact condition, `box_reset_violated`). `Transform` loses a corner the same way
  (`box_transform_violated`). An invalid box overlaps the infinite one (`box_overlaps_violated`).
* **C39** `Include` of a sphere swaps the weights of the centres (FUBoundingSphere.cpp 138): the result contains both exactly if it did before or the radii
  are equal (`Geo.sphere_include_sphere_partial`); the radius can shrink below that of a sphere that surrounds the other (`sphere_include_sphere_violated`).
  The overlap centre of two spheres lies on the far side (83), and is 0/0 for equal centres; an invalid sphere overlaps (`sphere_overlaps_violated`).
  `Transform` takes the images of the axes for the extent, which is too small under shears (`sphere_transform_violated`).
* **C44** `FUDaeTextureFilterFunction::ToString` has no case for `LINEAR` (FUDaeEnum.cpp 160-172): it is written as "UNKNOWN" (`Enum.textureFilter_violated`).
  Values without a name are mostly kept, but the unknown blend mode is written as "NONE" (`Enum.unnamed_values`).
* **C46** `StripFileFromPath` returns a file name that has no folder (FUFileManager.cpp 264-265: `FPath.strip_name_violated`), and works on the first 1024
  characters only (259: `strip_long_violated`). `GetFileExtension` cuts at 1023 characters (272-273: `extension_long_violated`) and passes negative `char`
  values to `tolower` (Platforms.h 111: `extension_character_violated`).
* **C51** Keys of one curve that are closer than the tolerance of `IsEquivalent` (0.0001) can be merged out of order (FCDAnimationCurveTools.cpp 62-84:
  `Curve.merge_order_violated`). `Collapse` casts the array of keys to an array of Bezier keys (236-237), which is undefined (`collapse_violated`).
* **C81** The interpolation of a merged key is that of one curve, so a STEP key makes a LINEAR curve constant (`Curve.merged_step_violated`). In the 2D
  evaluation, Bezier tangents are weighted by the time ratios as in the 1D evaluation (FCDAnimationMultiCurve.cpp 151-156), so even a constant Bezier curve is
  changed (`merged_bezier_violated`). The infinities are ignored (80-169: `merged_infinity_violated`), and default values are lost if no curve has a key
  (`merged_default_violated`).
- **C82.** `FCDSceneNode::SetSubId` (FCDSceneNode.cpp 209-218) cleans the text for the first candidate only; the later ones are built from the uncleaned text, so after a collision the sub id may contain characters that are not allowed (`sub_id_valid_violated`: "a b" below a node "a_b" becomes "a b_0"). The loop is left after 513 rounds with a candidate that has not been tested (`sub_id_unique_violated`).
- **C73.** `PackVertexBufferColor` (FCDGeometryPolygonsTools.cpp 975) instantiates the copy loop with `isColor = false`: a colour component 1.0 becomes the byte 1 and not 255, and a missing alpha is not set (`pack_color_violated`). `GenerateVertexPackingMap` (992) only resizes the packing map it is given; a map that is used a second time keeps its old numbers and different indices get the same number (`pack_reuse_violated`).
- **C72.** `FitIndexBuffers` (FCDGeometryPolygonsTools.cpp 1087-1181) never ends, adding empty polygon sets, if a face is larger than the maximum (1137, `fit_large_violated`). The new sets do not get the primitive type (`fit_prim_violated`) or the holes (`fit_hole_violated`) of the old one, and the numbers of the holes stay in the old one although the faces are gone. The inputs for the per-vertex sources are at offset 0 in the new sets whatever their offset was; another source with offset 0 then shares their indices and loses its own (`fit_offset_violated`).
- **C83.** `FCDGeometryPolygonsInput::OnObjectReleased` (FCDGeometryPolygonsInput.cpp 56-79) is meant to hand a shared index list to another input, but its member `source` is a `FUTrackedPtr` that tracks the source too and is told first: `source` is always null when line 58 compares it, and the rest is never run. Since the input stays in its set with its list, nothing is lost (`release_source`); had it run, it would have cleared the list whenever the input is the first of its offset. But `FCDGeometryPolygons::FindInput(const fm::string&)` (243) and `Clone` (313) then use a null source. The release of an input with a shared list does lose the indices of the others (`release_input_violated`), and so does `AddVertexSource(source)` (FCDGeometryMesh.cpp 186-189), which releases the input (`add_vertex_source_violated`).
- **C84.** `FCDGeometryPolygons::Clone` (FCDGeometryPolygons.cpp 288-337) does not copy the primitive type (`clone_prim_violated`); inputs of per-vertex sources are at offset 0 in the clone wherever they were, and may then share a list with others (`clone_offset_violated`); inputs are looked up by their source, so that two inputs of one source become one (`clone_twice_violated`).
- **C86.** `IsInverse` compares with a tolerance of 0.0001 (FCDTransform.cpp 100, 146-149), so transforms it accepts may move every point (`inverse_tolerance_violated`); the rotation around the zero vector is carried out around X but is "opposite" to itself (`inverse_zero_violated`); scales, skews and matrices are never inverse (39-42, `inverse_scale_violated`).
- **C87.** `FCDTSkew::ToMatrix` (FCDTransform.cpp 294-313) fills `v[col][row]` as if the array were indexed by column first, but the constructor of `FMMatrix44` reads it by rows: the matrix is transposed. Points move along `rotateAxis`, "the axis which is rotated", by their component along `aroundAxis`; `rotateAxis` stays and `aroundAxis` is turned (`skew_axis_violated`).
- **C88.** The `Clone` functions of the transforms (FCDTransform.cpp 71-80, 117-126, 166-175, 206-215, 241-250, 283-292) do not copy the sub id (`clone_sub_id_violated`), so animation targets and sub id paths do not find the transforms of a clone. Shared nodes become several nodes (`clone_shared_violated`).
- **C89.** `OnPotentialSizeChange` (FCDParameterAnimatable.hpp 194-219) only looks at the first helper: an insertion or removal after it that needs no new buffer leaves the later helpers pointing at the wrong values (`insert_pointer_violated`), even past the end (`erase_pointer_violated`). `resize(count, value)` calls `OnRemoval(count - values.size(), values.size())` (190): when shrinking, the helpers of the values that stay are released, and those of the values that go stay with negative indices (`resize_value_violated`).
- **C90.** The animated value of a skew gets the qualifiers of a look-at (FCDParameterAnimatable.cpp 140): an animation of `.ANGLE` finds nothing (`skew_qualifier_violated`). `FindQualifier` takes `(4)(0)` for index 4, the element `(0)(1)` (`matrix_range_violated`; FCDAnimated.cpp 143-144 with FUStringConversion.cpp 225-241, which reads the first bracket only). `AddCurve` is documented to delete the curve assigned before, but appends; the old curve stays the one that is sampled (`add_curve_violated`).
- **C91.** `SetCurrentTime` calls itself for each loaded document (FCDocument.cpp 366-370): if two documents refer to each other, it never ends (`set_time_cycle_violated`).
- **C92.** `FCDEAttribute::SetName`, `FCDEType::SetName` and `SetProfile` store any name, so that names are neither valid nor unique although `FindAttribute` is documented to rely on it (`names_violated`); `CleanName` keeps the empty name (`empty_name_violated`). `AddAttribute` and `AddChildNode` clean the name, `FindAttribute`, `ReadAttribute` and `FindChildNode` do not: what was added as `a-b` is not found as `a-b` (`lookup_violated`).
- **C93.** `AddChildNode` and `AddParameter` keep the content of the node, so that a node has both (`mixed_violated`). `FindParameter` is documented to return a node without child nodes, but is the same as `FindChildNode` (`find_parameter_violated`).
- **C94.** A clone cleans the names of attributes (`clone_name_violated`), merges types of the same name (`clone_merge_violated`), always has a default type (`clone_default_violated`), and has no animated values (TODO at FCDExtra.cpp 344).
- **C95.** `SetUri` does not reset the entity: a reference that has one keeps answering it (`set_uri_violated`). `SetEntity(NULL)` keeps the id, so that the next `GetEntity` finds the old entity again (`set_null_violated`). When `SetUri` drops the last reference to a document that is not a top document, the document is released while the reference still points to the old placeholder, and the id of the released entity overwrites the new one (`set_uri_id_violated`).
- **C96.** `SetEntityDocument` looks for a placeholder by document only: if the URL already has a placeholder that is not loaded, a second one is made, and resolving a reference through the first loads the file a second time (`two_copies_violated`).
- `FCDPlaceHolder` and `FColladaPluginManager` declare themselves as their own parent type (`DeclareObjectType(FCDPlaceHolder, FCDPlaceHolder)`). The name `GetClassType` is looked up before the class declares its own, so that compilers find that of the base class; a compiler that found the own one would give a type object that is its own parent, and `Includes` would not return. C43 takes the parents as compilers find them.
- **C98.** A tapered cylinder or capsule whose radii differ by less than the tolerance is taken for a straight one, so that its volume is not exact (`volume_violated`; the error is bounded by `volume_close_partial`). A plane has the volume 1.
- **C99.** `FCDPhysicsShape::CalculateVolume` adds the bounding box of each set of polygons: a mesh whose polygons are in two sets that share the positions counts twice. With the bounding box of C38, a first position above all others gives a volume that is wrong and can be negative. Two meshes that are the convex hulls of each other are looked up without end. An instance without a geometry, and polygons without positions, dereference NULL (`mesh_volume_violated`).
- **C100.** `FCDPASPlane::Clone` does not copy `d`; `FCDPhysicsShape::Clone` clones the material instance into itself (line 131), so that the clone has an instance of nothing, and does not copy `isDensityMoreAccurate` (`shape_clone_violated`). The internal setters make a shape both analytical and an instance (`one_geometry_violated`).
- **C101.** `SetPhysicsMaterial` with the own material releases it and then refers to it. A body cloned within its document refers to the own material of the original, and loses it with the original (`materials_violated`).
- **C102.** `CopyFrom` leaves out density, `isDensityMoreAccurate` and `isInertiaAccurate` (`body_clone_violated`); `FCDPhysicsRigidConstraint::Clone` leaves out the sub id and keeps the bodies, so that the constraints in the clone of a model join bodies of the original; cloning a physics model instance or a scene with a force field instance adds a NULL to a container (`model_clone_violated`).
- **C103.** A component outside 0 to 1 is converted to a byte out of range, which is undefined for floats (`color_range_violated`); `ToFloats` with a component count above four writes zeros only.
- **C104.** The hue 1 gives magenta instead of red, and a negative hue an uninitialised colour; saturations below the tolerance are taken for 0 (`from_hsv_violated`). The hue of a grey is 0/0, and components that differ by less than the tolerance are taken for equal, which gives the hue of another colour (`to_hsv_violated`).
- **C105.** `Wrap(2, 0, 1)` is 1 with the general template but 0 with the specialisations (and −1 gives 0 and 1); an empty range does not end or divides by zero, although no check is documented; `Wrap` of integers overflows if the value is far from the range (`wrap_violated`).
- **C106.** `NormalizeIt` and `Normalize` of the zero vector are different axes (`normalized_violated`). `ComponentMinimum(v)` gives the maximum and `ComponentMaximum(v)` the minimum, against their documentation; the versions without argument and `ComponentAverage` ignore signs (`components_violated`). `FMAngleAxis` `operator==` tells apart a rotation by zero about opposite axes, and is not transitive (`angle_axis_violated`).
- **C107.** A skin can be put on a controller that deforms it, itself for one: `SetTarget` first clears the target, but the reference keeps the identifier (C95), the old geometry is found through it, and the call is accepted; `GetBaseGeometry` then never ends (`chains_violated`). For the same reason `SetTarget(NULL)` leaves the old target in place (`set_target_null_violated`). Morphers are safe, since their base target is a plain pointer.
- **C108.** `SetGeometry` releases the old geometry if the morph target is its only tracker, although the library owns it, and leaves the morph target empty if the new geometry does not fit (`set_geometry_destroys_violated`); given the same geometry again it stores a destroyed object (`set_geometry_same_violated`). A mesh without positions does not fit itself (`add_target_positions_violated`). Morph targets are not checked again when the chain below the base, or a geometry, changes (`morph_targets_fit_violated`).
- **C110.** `FindSkeletonNodes` returns a list with a null pointer if there is no root and no instanced visual scene (`skeleton_null_violated`). `CalculateRootIds` looks only at direct parents, so that a joint below another joint, with a node that is not a joint in between, is a root too (`roots_minimal_violated`).
- **C111.** The generated symbol is the identifier followed by the face offset without a separator: "m" at 10 and "m1" at 0 both give "m10", and the second set is drawn with the first material (`generated_collide_violated`). `AddMaterialInstance(NULL, polygons)` and `GetGeometryTarget` under a controller without base geometry use null pointers (`null_violated`).
- **C112.** `FCDEntityInstance::Clone` copies neither name, sub id nor extra tree (`clone_name_violated`); the clone of a controller instance has no parent (`clone_parent_violated`); `FCDMaterialInstance::Clone(NULL)` uses a null pointer (`clone_material_null_violated`); a null entity is not copied over an entity (`clone_null_entity_violated`); materials are appended, so the old ones are found (`clone_into_stale_violated`).
- C113: a search in a material instance that is not attached to a geometry instance dereferences a null pointer (FCDEffectTools.cpp 483-494).
- C114: `GetAnimatedColor` sets `*isFloat3 = true` when a reference leads nowhere although it returns the effect's own 4D colour, and leaves the flag unwritten when there is no reference (FCDEffectTools.cpp 208-212, 283-287). `GetDefaultColor`/`GetDefaultFloat` do not check the material, the effect or the profile for NULL (345-350, 424-429). An FX profile given the type COMMON is cast to a standard effect.
- C115: with a reference that leads nowhere `SynchronizeAnimatedParams` leaves the geometry instance's parameter alone although the default is the effect's own value.
- C116: `GetOpacity` and `GetReflectivity` add the red channel three times (FCDEffectStandard.cpp 227-239).
- C117: `SetImage` releases the texture's sampler although another texture with the same image uses it, so that one loses its image; even giving the same image again does so (FCDTexture.cpp 78). The sid it looks for is not cleaned while the stored one is (83-94, 103-110): for an id with a dot the search never finds its own surface, and an image "a_b" is given the surface of "a.b". A surface found by its sid may hold another image or none after the image was renamed or released.
- C118: the check in `AddImage` is the wrong way round, so an index in range is refused and one out of range used (FCDEffectParameterSurface.cpp 75); an image that is already there gives back the index asked for (80). A released image leaves the list without shifting the cube map.
- C119: the default of LIGHT_SPOT_DIRECTION is written as a vector of three floats into a structure documented and sized for four: the last four bytes stay uninitialised, and keep the user's data on reset (FCDEffectPassState.cpp 204-207). A type out of range gets a one-byte state that is never written (44-48).
- C120: a cloned shader looks for its code by sub id, in the technique and then the profile; codes without a sub id all have the empty one, so the clone uses the first of them (FCDEffectPassShader.cpp 100-104). `FCDEffectTechnique::Clone(NULL)` makes a technique without a profile, and cloning a shader whose code belongs to the profile dereferences it (FCDEffectTechnique.cpp 64, FCDEffectPassShader.cpp 103).
- C121: the functions for the pairs X and Z compose the two quarter turns in the wrong order: a Z-up scene becomes Y-up when X-up is wanted (FCDocumentTools.cpp 156, 159). A wanted unit below 0.0001 m is taken for "not given" (424).
- C122: a look-at is converted to the turn times its matrix, while every other transform is conjugated by the turn: what hangs below a look-at is turned once more (498).
- C123: `GetAssetFunctors` puts the asset of the library behind that of the document, so that it is ignored whenever the document has one (238). An entity with an asset of its own ignores the document's, even if its own has neither unit nor axis (FCDEntity.cpp 104-108). Parents are visited before their children, and their flags are reset at once, so that a child is converted with the document's unit instead of its parent's (549). Assets of libraries are never reset, so a second equal call scales again. A document without unit and axis is not converted, but labelled with the wanted ones. If the axis changes, a factor within 0.0001 of 1 is applied to translations, but not to vertices.
- C125: together with C122, a camera placed by a look-at is turned twice: looking along -Z in a Y-up document, it looks straight up after the change to Z-up.
- C126: between two TCB keys, the time of the second control point is computed from the value of the key (FCDAnimationCurve.cpp 457), so that scaled values bend the curve in time. `FindT` ends at an error of 1/1000 in time whatever the unit of time: with times in thousands of seconds, a Bezier curve that is 0.105 at a quarter becomes 5/32. The weights of the one-dimensional evaluation of Bezier keys do not sum up to 1, so that an added offset changes the shape.
- C127: for normals, tangents and binormals, the animated objects of the numbers j, j + 1, j + 2 are asked for the numbers of the element j (FCDocumentTools.cpp 638-640): only the first normal is converted, the curves of all others stay in the old coordinates. A curve of an animation with an asset of its own is converted by that asset, the value it animates is not. A curve on two values is converted twice.
- C128: `Clone` of an effect parameter keeps no curves, although the comment of the class says so (FCDEffectParameter.hpp 76-80); that of a sampler keeps no modes (FCDEffectParameterSampler.cpp 66-79), that of a surface no names and no type (FCDEffectParameterSurface.cpp 142-179), and that of a cube map no order of its images (229-241).
- C129: `IsValueEqual` of surfaces compares the sizes with an operator that FMVector3 does not have; both are converted to pointers, so that no two surfaces are equal (FCDEffectParameterSurface.cpp 130). `Overwrite` writes neither the precision of numbers nor the type of a sampler, and of a surface not the way of initialising.
- C130: `FCDEffectProfileFX::Clone` drops the platform. `FindProfileByTypeAndPlatform` casts every profile of the type to an FX profile (FCDEffect.cpp 69); with the type COMMON and a standard profile that is undefined behaviour.
- C131: `FCDEffectStandard::Clone` copies the parameters of the profile and then adds, for each texture, one more copy of its sampler with the same reference (FCDTexture.cpp 129). The samplers of the clone track the surfaces of the original, not their copies: when the original is released, the textures of the clone have no image. `isReflective`, `isRefractive` and the references of colours are lost.
- C132: `FCDMaterial::Clone` with the children adds a clone of the effect to the library and sets `ownsEffect`, but does not make it the effect of the clone (FCDMaterial.cpp 90-95). The technique hints are not cloned.
- C133: `FCDLinearSpline::ToBezier` never opens the spline it fills, so that an open line becomes a closed curve when the Bezier spline was closed before; a spline of fewer than two vertices leaves the Bezier spline with its old vertices (FCDGeometrySpline.cpp 62-73).
- C134: `FCDBezierSpline::ToNURBs` of a closed spline with fewer than two vertices reads `cvs[-2]` or `cvs[-1]` (157-158), although `IsValid` accepts such a spline. A closed spline is read as in-tangent, position and out-tangent of every knot, while the comment of the class says that its first vertex is used again for the last (FCDGeometrySpline.h 143-146): the curves differ. With a number of vertices that is no multiple of three the curve has gaps.
- C135: `FCDGeometrySpline::Clone` into an object that has splines sets the type and keeps these (273-281): a linear spline can be left among Bezier splines, which `ConvertBezierToNURBS` casts without a check (335). `ClearCVs` leaves the weights of a NURBS spline, so that it can not be made valid again by adding vertices. `IsValid` of a Bezier spline without vertices is true unless warnings are fatal (178).
- C136: `FCDAsset::Clone` into an asset whose up-axis or unit is set leaves the flag although the original has none.
- C137: `FCDCamera` and `FCDLight` do not override `Clone`: a copy of a camera or a light is an `FCDTargetedEntity` without any field of the camera or light, and copying one camera into another copies no field. `FCDEntity::Clone` does not copy the asset, so that a copy may be in another unit or up-axis than the original.
- C138: `~FCDTargetedEntity` does not decrement the count of its target (FCDTargetedEntity.cpp 34-36): after the camera is released, `IsTarget` of the node stays true.
- C139: `SetFovX` and `SetFovY` set the aspect ratio to the horizontal over the vertical view (FCDCamera.cpp 44, 52), while FCDCamera.h gives the vertical over the horizontal one. They test that the horizontal view is not zero, and divide by the vertical one.
- C140: with an animated fall-off angle and a penumbra that is not animated, `LoadPenumbra` gives the outer angle the curves of the fall-off angle without copying them and then moves them (FCDLightTools.cpp 61-92): both angles have the same, moved animation. With a negative animated penumbra and `createAnimationChannel`, the default, the keys of the shared curve are deleted and then read (132-176). The header says that the outer angle is the sum of the fall-off angle and the penumbra; the code uses twice the penumbra.
- C141: the search for the time at which the penumbra is zero (FCDLightTools.cpp 235-253) does not end for step keys that change the sign. A new key has the interpolation of the key before, but its tangents are written if the key behind is a Bezier key (255-284): out of bounds behind a linear key.
- C142: a name that is empty or holds a blank does not survive in a source of names (FAXColladaWriter.cpp `AddSourceString`): the list is written with blanks between the names, so an empty name moves all later ones.
- C143: `WriteExtra` writes nothing for a type without nodes in any technique; the content of a node with child nodes is not written; attribute values such as the profile are written as they are, but `%` is decoded when they are read.
- C144: `LoadAsset` knows three up-axes only: `-Y` is lost. A unit factor that equals zero within the tolerance of the library, such as the micron, becomes 1. The path of the source of a contributor is read back as a file address.
- C145: a parameter `note` or `user_properties` of the user in the profiles MAYA, MAX3D or FCOLLADA becomes the note of the entity, one called `target` in any profile its target, and is taken out of the extra tree.
- C146: `WriteGeometryPolygons` writes points with a `<vcount>`, which `LoadGeometryPolygons` rejects, so that all faces are lost. `AddPolygons` puts the per-vertex inputs at the offset 0 before the file is read, and `LoadGeometryPolygons` keeps that offset: if `VERTEX` has another offset in the file, the indices of the vertices are appended to those of the input at the offset 0, and if there is no input at 0 a NULL list is used. A face of a `<polylist>` with more corners than there are positions makes the load fail; without a source of positions a NULL pointer is used. Inputs of unknown type are lost. For lines in several faces the count that is written is that of the first face only, and an error is reported when they are loaded.
- C147: `WriteGeometryMesh` writes the element `<convex_mesh>` only for a mesh with a convex hull, so that the convex flag, which is set for every new mesh, is lost otherwise. The type of a source is written only with the inputs that use it. Sources of the types `POINT_SIZE` and `POINT_ROTATION` are not written; if one of them is per-vertex, `LoadGeometryMesh` does not find it and returns the value of `FUError::Error`, which is true when errors are fatal, as they are by default: the load is reported as a success, and all polygon sets are lost. `WriteTechniquesFCDExtra` writes the techniques of all types of the extra tree of a source, and all are loaded into the default type. The set numbers of per-vertex inputs are taken from the first polygon set and put into all. A mesh element without `<vertices>` makes `LoadGeometryMesh` use a NULL pointer (line 116).
- C148: `AddNodeSid` does not look for a clash when the element has an id, returns the wanted sub-id and not that of the element when it has one, and after 98 clashes gives no sub-id and returns the empty text, which then replaces the sub-id of the transform or parameter that is being saved. Sub-ids in use are compared after decoding `%`, the wanted one is not.
- C149: `LoadTransformSkew` makes the axes of the skew have length 1 and fails for axes within 0.0001 of the origin, which can be saved; the load of the whole scene node is then reported as a failure.
- C150: a node with several parents is written in full under its first parent and as `<instance_node>` under the others; `LoadSceneNode` looks the node up while the file is read, so that a link to a node whose element comes later is dropped with a warning. Links are written before the other children, so the order of the children changes. `WriteSceneNode` writes the visibility when it is not above 1/2 but writes `true` for exactly 1/2. The sub-id, the type and the visibility of the root are not written. In the loop over the child elements `status = LoadSceneNode(child)` replaces the failure of an earlier transform or instance by the success of a child node.
- C151: `WriteCamera` leaves out the aspect ratio when both views are in use and `LoadCamera` makes it of the views, so that one set with `SetAspectRatio` is lost. With a horizontal view near zero the aspect ratio of a new camera remains; with a vertical view of zero `SetFovY` divides by zero.
- C152: `LoadLight` searches the parameters of all techniques of all profiles for the names of the values of lights, takes them over and releases them, whatever application wrote them; of several penumbras only the last is released. It dereferences `technique_common` without a check. The outer angle of point and ambient lights, the fall-off of these and the attenuation of ambient lights are not written.
- C153: `LoadSkinController` scales the weights of every vertex to the sum 1 without being asked to, and `WriteSkinController` makes weights within 0.0001 of 1 into 1. An empty joint id disappears from the `Name_array`, so that all joints behind it get the ids of their successors; a blank in an id makes more ids than bind-poses, and the bind-poses are read out of bounds. `<vcount>` and `<v>` are dereferenced without a check, the counts are read out of bounds if there are fewer than vertices, and `combinerVertexIndexCount - 1` wraps around for an empty `<v>`.
- C154: `LinkMorphController` searches for a controller with the `#` still in front of the id, while `FindDaeId` no longer skips it, so that a morpher on a skin always loses its base (a debug build asserts). `LoadMorphController` reports a missing `<targets>` element and then asks for its line, and reads the weights out of bounds if there are fewer than targets. A target without geometry is written as `UNKNOWN_IDREF` and released when the base is linked.
- C155: `Import` counts the documents being loaded, but does not count down when the root element is not `COLLADA` or when loading is cancelled, so that intermediate data is never cleared afterwards (FArchiveXML.cpp 555-565). `oneVisualSceneInstanceFound` is never set, so that the last of several visual scene instances is taken (705). The libraries of animations and emitters are written only if they have entities, so that their extra trees are lost otherwise. The result of `targetedEntityDataMap.find` is used without a check (767, 777).
- C156: `WriteEntityInstance` writes no extra tree, while `LoadEntityInstance` reads one. `WriteControllerInstance` writes the extra tree after `WriteGeometryInstance` has already done so (FAXInstanceExport.cpp 131, 154), so that the nodes of the techniques double with each saving and loading. `LoadGeometryInstance` reads only `param` elements although effect parameters are `newparam` by default. Not modelled: `LoadPhysicsRigidBodyInstance` uses the rigid body after it was not found, and `LoadPhysicsRigidConstraintInstance` uses the model after reporting that it is missing.
- C157: `WriteSourceFCDAnimationCurve` makes a list of as many interpolations as there are keys and then appends the interpolations (FAXAnimationExport.cpp 407-409), so that a file has twice as many as there are keys and the first half, which is the half that is read, is memory that was never set. The merged writer does the same (609-612). An index of zero of a driver is written as `(0)(0)`. Not modelled: `LoadAnimationChannel` makes the extra tree of the animation transient, so that it is never saved again; `WriteAnimatedValue` uses the data of the channel before its check for NULL; `CleanId` cuts ids at 512 characters, so that those of long pointers may be equal.
- C158: `LinkAnimation` (FAXImportLinking.cpp 101) tests `HasDriver()` where it means that there is none, so that ERROR_ANIM_CURVE_DRIVER_MISSING is reported for the drivers that were found. `ProcessChannels` looks up the standard qualifiers for any value, so that `.W` drives the X of the target of a look-at, and takes the first index of `[2][1]` as the index of a float.
- C159: `LinkControllerInstance` (FAXInstanceImport.cpp 417-424) leaves out a joint of the skin that has no node, so that all later joints of the instance have an index that differs from the one in the skin and its influences. Without a visual scene, and with no root that is found, it calls `FindDaeId` on a null pointer (line 412).
- C160: `LoadAnimationClip` (FAXAnimationImport.cpp 434-478) adds instances of animations, but `WriteAnimationClip` (FAXAnimationExport.cpp 208-221) writes instances only for the curves of a clip, and nothing adds curves to a loaded clip: a file that is loaded and saved has clips without animations. Each loaded clip gives a warning that it is empty. The names of instances are read but not written.
- C161: `LoadAnimationChannel` has debugging code that is switched on (FAXAnimationImport.cpp 20, 39-46): it adds a type `AnimTargets` to the extra tree of the animation and makes the whole extra tree transient. When an animation with a channel is saved again, its extra tree and its note are not written.
- C162: `LoadEffectParameterSurface` calls `ToStringList` for each element `init_from` (FAXMaterialImport.cpp 464-497), which appends to the names that there are: the images of a surface written with faces, slices or mip levels (FAXMaterialExport.cpp 328-340) come back as one name, the ids joined, and no image is found.
- C162: the size, the viewport ratio and the flag for mip maps are set even when there is no element (FAXMaterialImport.cpp 658-665): a surface without size gets an indeterminate size (`ToVector3` of an empty text) and the ratio 0 instead of 1. `mipmap_generate` is read but never written. A cube, volume or planar surface without images dereferences a NULL image when it is written (FAXMaterialExport.cpp 370, 376, 387, 394, 411).
- C163: every element `param` is loaded as an animator (FAXMaterialImport.cpp 151): references and constants change their usage, the attribute `ref` is not read, and the value of a constant float, float3 or vector is not read. `WriteEffectParameterVector` writes the reference where the semantic is read.
- C163: `FUDaeTextureFilterFunction::ToString` has no case for LINEAR, so that a sampler with the most common filter is saved with UNKNOWN. Values of bool, int and float annotations are escaped when written and not unescaped when read.
- C164: LIGHT_SPOT_DIRECTION is documented as `{ uint8 index, FMVector4 value }` (FUDaeEnum.h), 17 bytes are allocated for it, and only three floats are written and read (FAXMaterialExport.cpp 713-716, FAXMaterialImport.cpp 993-996): the last float of a loaded state is indeterminate.
- C164: the text of TEXTURE_ENV_MODE is copied into the data without its final zero (FAXMaterialImport.cpp 1023): "ADD" loaded over "MODULATE" is "ADDULATE".
- C165: `LoadEffectPassShader` returns early when there is no name (FAXMaterialImport.cpp 808-812), which the writer leaves out when empty: stage, code, compiler information and bindings of a shader without name are lost. Bindings without reference or symbol are not written. A shader whose code belongs to the profile is loaded with a code of the technique that has the same sub-id.
- C166: a technique without passes is written with an empty pass (FAXMaterialExport.cpp 1020-1023) and loaded with one; a parameter of a profile that changes a value is written as `<setparam>`, and `LoadEffectProfile` reads only `<newparam>`; `FindCode` with the empty text finds a code without sub-id, so that a shader without code gets it when loaded.
- C167: `LoadEffectStandard` sets a textured colour to white and a textured number to one, so the shininess, which is written besides its textures, is lost; the textures of the specular level are not written when the level is one (FAXMaterialExport.cpp 937); refraction textures are written as `<index_of_refraction>`, which makes the profile refractive when loaded; the emission colour is not written besides an emission level; `LoadTexture` replaces the number of the texture set by the number its semantic begins with; with the lighting `UNKNOWN` everything is written below an element that is not read; a colour parameter that is neither constant nor a reference gives an empty element, for which `ToVector4("")` returns an indeterminate value; `WriteTexture` calls the non-constant `GetSampler`, which adds a parameter without reference to the profile while it is being saved.
- C168: the file of an image is cut at a `#` or `?`; from a document in the root folder, saving an image is undefined behaviour (`front()` of an empty list, as in C24); `LoadMaterial` does not clear the hints; after the warning about a missing `<instance_effect>` it goes on with the null pointer (FAXMaterialImport.cpp 52-62); `<newparam>` elements of a material are written and not read; a material whose effect is not there is written without its reference, hints and parameters.
- C169: `LoadEffect` takes the `<asset>` of an effect for a profile and warns (FAXMaterialImport.cpp 1488-1500); it clears the parameters and not the profiles; `AddProfile(UNKNOWN)` makes a profile that is written as `<UNKNOWN>` and lost; an element with another name is read after the warning.
- C170: a parameter of another type with the reference of a surface in a nearer scope leaves the sampler without surface (FAXImportLinking.cpp 349-358), though for textures the search goes on (486-493); `LinkMaterial` looks for surfaces only in the material, `LinkEffect` only in the effect; an empty name of a surface matches a parameter without reference.
- C171: `ImportFile` clears the link data of every document (FArchiveXML.cpp 404, 438) also when it was called while another import is in progress, which happens for an instance of a geometry of another file without `<bind_material>` (FAXInstanceImport.cpp 113-116): every sampler, texture, morph controller, camera and light of the outer file then dereferences the end of a map. An instance of a skin of another file does so always (FAXInstanceImport.cpp 383). Two files that refer to each other this way load each other without end. A root element other than `COLLADA` (FArchiveXML.cpp 559-564) and a cancelled import (668) leave `loadedDocumentCount` raised.
- C172: `LoadGeometrySpline` calls `SetType` for every `<spline>` (FAXGeometryImport.cpp 583), and `SetType` releases all splines (FCDGeometrySpline.cpp 286-292): of several splines only the last is loaded, without a failure. A type that is not LINEAR, BEZIER or NURBS makes `AddSpline` return NULL, which is dereferenced (591). Names of splines and an empty spline object are not written; a degree that was never set is written as it is.
- C173: `WritePASPlane` puts the normal and the distance into the vector as w, x, y, z (FAXPhysicsExport.cpp 131-135) and writes it as x, y, z, w, whereas `LoadPASPlane` reads normal and distance in order: every plane whose numbers are not all the same is turned by saving and loading.
- C174: the material that a shape owns is written into a second element of the same name (FAXPhysicsExport.cpp 39-43), of which the loader reads only the outer one: its values, name and id are lost. A material inside `<instance_physics_material>` is given to a loader that rejects this name (FAXPhysicsImport.cpp 291-296, 604). A mass of zero is not written, so that a shape without mass is given one by loading. Transforms other than rotations and translations are written but not read.
- C175: the springs of a rigid constraint are written into `<technique_common>` (FAXPhysicsExport.cpp 246) and looked for directly below the constraint (FAXPhysicsImport.cpp 841): they are always lost. The transforms of an end are read with the rotations first, so that a translation before a rotation changes the frame, and the others are dropped. A transform that cannot be read is reported as a failure only if it is the last (731, `status =`). An end without a body is fixed to the first rigid body without a sub-id. Flags are floats that are read as Booleans by their first character: 0.5 becomes 0.
- C176: the density of a rigid body is not written, and loading a mass sets it to 0 (FAXPhysicsImport.cpp 155-156): it is lost for every body. Without a mass, without default parameters and without shapes the density is 0 / 0 (187). The flag of default parameters is rounded (40), and the failure of a shape is not reported by the body that has it (697).
- C177: the asset of a library without entities is lost, since `IsEmpty` does not look at it (FArchiveXML.cpp 842-844, 1065-1082).
- C178: of several `<mesh>` elements only the first counts and the others are dropped without a report; with both `<skin>` and `<morph>` the skin counts, with a warning only.
- C179: sub ids are skipped for elements without one, so two elements with the same sub id below different elements without names share an address and an animation of one is linked to both; an element with an empty `sid` has the address of its parent; a sub id with a slash reads as two (FAXColladaParser.cpp 444-493).
- C180: linking a `<convex_mesh convex_hull_of>` copies the name of the other mesh, mostly empty, over its own: the reference is lost and the mesh is saved as a plain `<mesh>` (FAXImportLinking.cpp 566-589, FCDGeometryMesh.cpp 241); a hull of a hull that comes before it in the library stays empty; the name is looked up with its `#` (C147 shows it is kept as read), so references as the format asks for are not found, and only an error is reported; `FindConvexHullOfMesh` does not end for hulls in a circle.
- C181: a file whose name has a `#` is cut there before its extension is read, so no archive is found (FColladaPlugin.cpp 152-153); files are matched in any case of letters but `IsExtensionSupported`, `AddExtraExtension` and `RemoveExtraExtension` use exact case (FArchiveXML.cpp 112-145); `GetSupportedExtensionAt` of a negative index reads before the array (150-152); saving releases all nodes of a technique that has an object, also those the user added (FColladaPlugin.cpp 245); an object without a plug-in is dropped when saving; plug-ins are found by the CRC of the profile alone: "plumless" and "buckeroo" have the same. By reading, not modelled: the deprecated `FCollada::LoadDocument` releases the document on failure and returns the pointer (FCollada.cpp 122-128).
- C182: `status |= LinkController(...)` and `status |= LinkSceneNode(...)` (FArchiveXML.cpp 745, 751) replace the status: `LinkSceneNode` never fails, so every file with a visual scene is loaded "with success" whatever failed before. `LoadLibrary` returns on a cancel but `Import` only asks again before the next library, so one answer to stop drops the rest of one library and is then hidden, and stopping in the last library is hidden too. The early returns at 563 and 668 leave `loadedDocumentCount` raised, so that link data is not cleared for later documents (C171). `LinkAnimation` uses the result of `FUError::Error` as a status (FAXImportLinking.cpp 103), which is `true` for fatal errors. By reading, not modelled: `ImportFile` returns `true` after an exception (FArchiveXML.cpp 406-412).
- C183: the sub-id of a rigid body is its id (FCDPhysicsRigidBody.h 54-59), which is made unique in the whole document: if a file has bodies with the same sub-id in two models, or any object with that id, the second body is renamed when it is loaded, `FindRigidBodyFromSid` (FAXInstanceImport.cpp 304) does not find it, and its instances come back without body, velocities and parameters and the loading fails. `AddForceFieldInstance(NULL)` (FAXInstanceImport.cpp 268) gets NULL from `CreateInstance` and puts it into the container of instances, which follows it: no file with an `instance_force_field` there can be loaded. If the model is missing, `body->GetParameters()` (344) and `model->FindRigidConstraintFromSid` (368) are called on NULL. An instance without a target node or body cannot be saved (FAXInstanceExport.cpp 249-250). Rigid bodies come back before rigid constraints.
- C184: `AttachModelInstancesFCDPhysicsModel` (FAXPhysicsImport.cpp 228-243) goes through a map with the key `xmlNode*` (FAXStructures.h 176): the order of the instances of a model is that of addresses in memory. `LoadPhysicsRigidBody` drops the status of `LoadPhysicsRigidBodyParameters`. `LoadPhysicsRigidConstraint` looks for its bodies among those loaded so far, so a constraint before its body in the file is loaded without it and nothing is reported. By reading, not modelled: cycles of models that instance each other are only looked for in `FCDPhysicsModel::AttachModelInstances` (FCDPhysicsModel.cpp 104-160), which nothing calls.
- C185: `LinkAnimatedCustom` (FAXImportLinking.cpp 149-206) stops at the first channel without a qualifier and cuts the list of qualifiers to its number of curves, so the curves of channels before it are lost if it has fewer curves than there are such channels, and those of channels after it if no float has their name. The floats that come from a channel without a qualifier have no names: saved, they are several channels with the same target, and all their curves are linked to the first float at the next loading.
- C186: `WriteVisualScene` (FAXSceneExport.cpp 323-356) leaves out the name of a layer without one, and `LoadFromExtraSceneNode` (FAXSceneImport.cpp 246) skips layers without the attribute: such a layer is lost, and its element stays in the extra tree of the scene. The techniques that held layers and times stay there without content.
- C187: `GenerateSampledAnimation` (FCDSceneNodeTools.cpp 32-46) puts only the transforms with curves into its list of animated values, but an entry for every transform into its list of angles. Behind a transform without curves the entries belong to other transforms: a rotation from 0 to 720 degrees is then sampled at its two keys only, where it does not turn at all. The sampling also leaves the node at the last sample time (lines 128-139), and equivalent keys of a curve can give times that are not in order.
- C188: `ApplyTranslationMap` (FCDControllerTools.cpp 50-60) looks up every vertex with influences in a constant map. The map that `GenerateUniqueIndices` makes (FCDGeometryPolygonsTools.cpp 758-764) has only vertices that a polygon uses: for another vertex the end of the map is dereferenced. Places of the resulting array that no vertex has are not set (FMArray.h 258-275), and there is one such place if nothing is packed.
- C189: the sub-ids of instances are made unique with `FUUniqueStringMap` (FCDEntityInstance.cpp 137-143) and have its faults (C21): after `a4294967294` and `a`, two more `a` both become `a4294967295`; `a01` behind `a1` becomes `a2` although it is unique.
- C190: `SetSchemeCallbacks` (FUFileManager.cpp 431-440) deletes the callbacks of the scheme before it stores the new ones, also if they are the same: the manager keeps a dangling pointer. `CloneSchemeCallbacks` (lines 469-474) dereferences callbacks that were set to NULL, which `OpenFile` allows. `OpenFile` (lines 187-205) does not end if an opener takes the file that it made.
- C191: `FCollada::GetAllDocuments` (FCollada.cpp 85-102) visits the placeholders of the top documents only: a document that is open because a document that is not a top document refers to it is not found, and is not linked when other documents are loaded. (Seen next to it, not modelled: `LoadDocument`, lines 122-128, returns the document that it has released when loading fails.)

