import Verif.Data.Tables
import Verif.Model.Parser
import Verif.Model.Positions

/-!
# The space-group database

Model of src/database/space_group_table.rs:1-63,1671-1677 and src/database/mod.rs:548-569.
-/

namespace Verif

/-- `[[&str; N]; 3]`: numbers, Hermann-Mauguin symbols, Hall symbols. -/
structure SpaceGroupTable where
  numbers : List String
  hms : List String
  halls : List String

/-- `FULL_SPACE_GROUP_SYMBOLS`, space_group_table.rs:1671. -/
def fullTable : SpaceGroupTable := ⟨Data.numberAndChoice, Data.hmFull, Data.hallName⟩

/-- `DEFAULT_SPACE_GROUP_SYMBOLS`, space_group_table.rs:1673-1677. -/
def defaultTable : SpaceGroupTable := ⟨Data.defaultNumberAndChoice, Data.defaultHmFull, Data.defaultHallName⟩

/-- `iter().position(|&s| s == key)` (std), space_group_table.rs:19,24-28,47,52-56. -/
def positionOf (key : String) : List String → Option Nat
  | [] => none
  | s :: rest => if s = key then some 0 else (positionOf key rest).map (· + 1)

namespace SpaceGroupTable

/-- `get_hm_full_notation`, space_group_table.rs:10-12,38-40. -/
def getHm (t : SpaceGroupTable) (i : Nat) : Option String := t.hms[i]?

/-- `get_hall_symbol`, space_group_table.rs:14-16,42-44. -/
def getHall (t : SpaceGroupTable) (i : Nat) : Option String := t.halls[i]?

/-- `get_space_group_number`, space_group_table.rs:32-34,60-62. -/
def getNumber (t : SpaceGroupTable) (i : Nat) : Option String := t.numbers[i]?

/-- `get_space_group_number_by_hm`, space_group_table.rs:18-21,46-49. -/
def numberByHm (t : SpaceGroupTable) (hm : String) : Option String :=
  match positionOf hm t.hms with
  | some i => t.numbers[i]?
  | none => none

/-- `get_space_group_number_by_hall`, space_group_table.rs:23-30,51-58. -/
def numberByHall (t : SpaceGroupTable) (hall : String) : Option String :=
  match positionOf hall t.halls with
  | some i => t.numbers[i]?
  | none => none

end SpaceGroupTable

/-- `SpaceGroupHallSymbol`, src/database/mod.rs:14-546: a variant is its position in the declaration (the value of
`*self as usize`), which is an index into the list of variant names. -/
abbrev SpaceGroupHallSymbol := Fin Data.variantNames.length

namespace SpaceGroupHallSymbol

/-- The name of the variant (src/database/mod.rs:14-546). -/
def name (v : SpaceGroupHallSymbol) : String := Data.variantNames.get v

/-- `get_hall_symbol`, src/database/mod.rs:549-555 (`unwrap` panics outside the table). -/
def hallSymbol (v : SpaceGroupHallSymbol) : Except Panic String :=
  match fullTable.getHall v.val with
  | some s => .ok s
  | none => .error .tableIndex

/-- `get_hm_symbol`, src/database/mod.rs:556-562. -/
def hmSymbol (v : SpaceGroupHallSymbol) : Except Panic String :=
  match fullTable.getHm v.val with
  | some s => .ok s
  | none => .error .tableIndex

/-- `get_space_group_number_code`, src/database/mod.rs:563-569. -/
def numberCode (v : SpaceGroupHallSymbol) : Except Panic String :=
  match fullTable.getNumber v.val with
  | some s => .ok s
  | none => .error .tableIndex

/-- `From<SpaceGroupHallSymbol> for HallSymbolNotation`, src/hall_symbols/mod.rs:208-212. -/
def toNotation (v : SpaceGroupHallSymbol) : Except Panic HallSymbolNotation :=
  match v.hallSymbol with
  | .error e => .error e
  | .ok s =>
    match HallSymbolNotation.tryFromStr s.toList with
    | some n => .ok n
    | none => .error .parseFailed

end SpaceGroupHallSymbol

end Verif
