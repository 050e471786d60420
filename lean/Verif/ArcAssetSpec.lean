import Verif.ArcAsset
import Verif.ArcSpec

/-! # What an asset should be after saving and loading -/

namespace Verif.FArc

open Verif.FEff (Text text)
open Verif.FConv (Ov DateTime)
open Verif.FEnt (Asset Contributor)

/-- The full address of a file. -/
def address (ov : Ov) (t : Text) : Text := if t = [] then [] else ((FUri.parse ov t).map fun u => FUri.absoluteUri u true).getD []

/-- A date-time whose year has at most four digits and whose other fields have at most two. -/
def GoodDate (d : DateTime) : Prop := d.year < 10000 ∧ d.month < 100 ∧ d.day < 100 ∧ d.hour < 100 ∧ d.minutes < 100 ∧ d.seconds < 100

/-- The texts of a contributor have no `%`; the source is empty or has an address. -/
structure GoodContributor (ov : Ov) (c : Contributor) : Prop where
  author : Plain c.author
  tool : Plain c.tool
  comments : Plain c.comments
  copyright : Plain c.copyright
  source : c.source = [] ∨ ∃ u, FUri.parse ov c.source = some u ∧ ∀ x ∈ FUri.absoluteUri u true, FXml.IsChar x

/-- An asset fit for a file: texts without `%`, a length unit that is not too small, an up-axis along an axis. -/
structure GoodAsset (ov : Ov) (rnd : ℚ → ℚ) (a : QAsset) : Prop where
  created : GoodDate a.created
  contributors : ∀ c ∈ a.contributors, GoodContributor ov c
  keywords : Plain a.keywords
  revision : Plain a.revision
  subject : Plain a.subject
  title : Plain a.title
  unitName : Plain a.unitName ∧ a.unitName ≠ []
  unitFactor : 1 / 10000 ≤ FConv.shown rnd a.unitFactor
  axis : a.upAxis = (1, 0, 0) ∨ a.upAxis = (0, 1, 0) ∨ a.upAxis = (0, 0, 1)

end Verif.FArc
