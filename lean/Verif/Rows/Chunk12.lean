import Verif.Data.Functionals

/-! Generated by tools/gen_rows.py; checked by the kernel. -/

namespace Verif

/-- Rows of the tables. -/
def rows12 : List Row := [
  ⟨205, "-P 2ac 2ab 3", "-P 2ac 2ab 3", 10846939688034188578000, true, idM, idM⟩,
  ⟨206, "-I 2b 2c 3", "-I 2b 2c 3", 775017423788773395668, true, idM, idM⟩,
  ⟨207, "P 4 2 3", "P 4 2 3", 285697662267254944, true, idM, idM⟩,
  ⟨208, "P 4n 2 3", "P 4n 2 3", 775048948758068422816, true, idM, idM⟩,
  ⟨209, "F 4 2 3", "F 4 2 3", 285697662267254950, true, idM, idM⟩,
  ⟨210, "F 4d 2 3", "F 4d 2 3", 775048948758068422822, true, idM, idM⟩,
  ⟨211, "I 4 2 3", "I 4 2 3", 285697662267254948, true, idM, idM⟩,
  ⟨212, "P 4acd 2ab 3", "P 4acd 2ab 3", 1162430574305969006752, true, idM, idM⟩,
  ⟨213, "P 4bd 2ab 3", "P 4bd 2ab 3", 387667323210167838880, true, idM, idM⟩,
  ⟨214, "I 4bd 2c 3", "I 4bd 2c 3", 775048948758068422820, true, idM, idM⟩,
  ⟨215, "P -4 2 3", "P -4 2 3", 6404236178257120, true, idM, idM⟩]

theorem rows12_ok : rows12.all (rowCheck functionals) = true := by decide +kernel

end Verif
