import Verif.Proofs.RowFacts
import Verif.Model.Database
import Verif.Data.Codes

/-! # The rows are the rows of the tables -/

namespace Verif

set_option maxRecDepth 100000

theorem rows_full_halls : (allRows.take 530).map Row.hall = Data.hallName := by decide +kernel

theorem rows_full_numbers : (allRows.take 530).map Row.num = Data.numberAndChoice.map spaceGroupNumber := by
  decide +kernel

theorem rows_default_halls : defaultIndices.map (fun i => (allRows[i]?).map Row.hall) = Data.defaultHallName.map some := by
  decide +kernel

theorem rows_default_numbers : defaultIndices.map (fun i => (allRows[i]?).map Row.num)
    = Data.defaultNumberAndChoice.map fun s => some (spaceGroupNumber s) := by
  decide +kernel

end Verif
