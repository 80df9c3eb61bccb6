import Verif.Model.Database
import Verif.Props.Operations
import Verif.Props.Contracts
import Verif.Props.Inverse
import Verif.Props.Classification
import Verif.Proofs.Closure
import Verif.Spec.Group
import Verif.Props.Generation
import Verif.Props.Text
import Verif.Props.Symbols
import Verif.Props.Parsing
import Verif.Props.Success
import Verif.Props.Lattice
import Verif.Props.Shift
import Verif.Proofs.Rows
import Verif.Props.Tables
import Verif.Props.TableGroups
import Verif.Props.TwoTables
import Verif.Props.Overflow
import Verif.Props.Types
import Verif.Props.Names
import Verif.Props.Release
import Verif.Props.Builder
import Verif.Props.Canonical
import Verif.Props.HallText
import Verif.Props.HallTables
import Verif.Props.Orbits
import Verif.Props.Order
import Verif.Props.AnyText
import Verif.Props.AsRead
import Verif.Props.Algebra
import Verif.Props.Subgroups
import Verif.Props.Visible
import Verif.Props.Powers
import Verif.Props.Proper
import Verif.Props.Passes
import Verif.Props.Relabel
import Verif.Props.Letter
import Verif.Props.Display
import Verif.Props.Settle
import Verif.Props.Setting
import Verif.Props.Print
import Verif.Model.FloatType
import Verif.Props.LargeEntries
import Verif.Model.CrystalSystem
import Verif.Spec.CrystalSystem
import Verif.Proofs.Subgroups
import Verif.Proofs.Classes
import Verif.Props.Classes
import Verif.Model.Debug
import Verif.Props.Debug
import Verif.Props.Complete
import Verif.Props.Hand
import Verif.Props.Site
import Verif.Props.Redundant
import Verif.Props.Number
import Verif.Props.Symmorphic
import Verif.Props.FixedPoint
import Verif.Props.Polar
import Verif.Props.Shown
import Verif.Props.Origin
import Verif.Props.Diffraction
import Verif.Props.Cell
import Verif.Props.Density
import Verif.Props.Tensor
import Verif.Props.Form
import Verif.Props.Conditions
import Verif.Props.NameConditions
import Verif.Props.ExtraAbsences
import Verif.Props.Multiplicity
import Verif.Props.FullSets
