import Verif.Data.Functionals

/-! Generated by tools/gen_rows.py; checked by the kernel. -/

namespace Verif

/-- Rows of the tables. -/
def rows11 : List Row := [
  ⟨193, "-P 6c 2", "-P 6c 2", 779807446477435998307, false, idM, idM⟩,
  ⟨194, "-P 6c 2c", "-P 6c 2c", 10851729710722851180643, false, idM, idM⟩,
  ⟨195, "P 2 2 3", "P 2 2 3", 1970868829124832, true, idM, idM⟩,
  ⟨196, "F 2 2 3", "F 2 2 3", 1970868829124838, true, idM, idM⟩,
  ⟨197, "I 2 2 3", "I 2 2 3", 1970868829124836, true, idM, idM⟩,
  ⟨198, "P 2ac 2ab 3", "P 2ac 2ab 3", 774765221964630292704, true, idM, idM⟩,
  ⟨199, "I 2b 2c 3", "I 2b 2c 3", 774765221964630292708, true, idM, idM⟩,
  ⟨200, "-P 2 2 3", "-P 2 2 3", 254172692972227792, true, idM, idM⟩,
  ⟨201, "P 2 2 3 -1n", "P 2 2 3 -1n", 775017423788773395664, true, idM, idM⟩,
  ⟨201, "P 2 2 3 -1n", "-P 2ab 2bc 3", 775017423788773395664, true, ⟨⟨1, 0, 0, 0, 1, 0, 0, 0, 1⟩, ⟨3, 3, 3⟩, 1⟩, ⟨⟨1, 0, 0, 0, 1, 0, 0, 0, 1⟩, ⟨-3, -3, -3⟩, 1⟩⟩,
  ⟨202, "-F 2 2 3", "-F 2 2 3", 254172692972227798, true, idM, idM⟩,
  ⟨203, "F 2 2 3 -1d", "F 2 2 3 -1d", 775017423788773395670, true, idM, idM⟩,
  ⟨203, "F 2 2 3 -1d", "-F 2uv 2vw 3", 775017423788773395670, true, ⟨⟨2, 0, 0, 0, 2, 0, 0, 0, 2⟩, ⟨9, 9, 9⟩, 2⟩, ⟨⟨2, 0, 0, 0, 2, 0, 0, 0, 2⟩, ⟨-9, -9, -9⟩, 2⟩⟩,
  ⟨204, "-I 2 2 3", "-I 2 2 3", 254172692972227796, true, idM, idM⟩]

theorem rows11_ok : rows11.all (rowCheck functionals) = true := by decide +kernel

end Verif
