import Verif.Data.Functionals

/-! Generated by tools/gen_rows.py; checked by the kernel. -/

namespace Verif

/-- Rows of the tables. -/
def rows10 : List Row := [
  ⟨167, "-R 3 2\"c", "-R 3 2\"c", 778798514995625844172, true, idM, idM⟩,
  ⟨167, "-R 3 2\"c", "-P 3* 2n", 775143031212433995776, true, ⟨⟨-1, 0, -1, 0, 1, -1, 1, -1, -1⟩, ⟨0, 0, 0⟩, 1⟩, ⟨⟨-2, 1, 1, -1, 2, -1, -1, -1, -1⟩, ⟨0, 0, 0⟩, 3⟩⟩,
  ⟨168, "P 6", "P 6", 7758590103068, true, idM, idM⟩,
  ⟨169, "P 61", "P 61", 1291272092918258716188, true, idM, idM⟩,
  ⟨170, "P 65", "P 65", 258254424790523825692, true, idM, idM⟩,
  ⟨171, "P 62", "P 62", 1033017675886324993564, true, idM, idM⟩,
  ⟨172, "P 64", "P 64", 516508841822457548316, true, idM, idM⟩,
  ⟨173, "P 6c", "P 6c", 774763258854391270940, true, idM, idM⟩,
  ⟨174, "P -6", "P -6", 9620726890880, true, idM, idM⟩,
  ⟨175, "-P 6", "-P 6", 9698237628835, true, idM, idM⟩,
  ⟨176, "-P 6c", "-P 6c", 774763260794038796707, true, idM, idM⟩,
  ⟨177, "P 6 2", "P 6 2", 1008844895269543388, false, idM, idM⟩,
  ⟨178, "P 61 2 (0 0 -1)", "P 61 2 (0 0 -1)", 1292280930054938156508, false, idM, idM⟩,
  ⟨179, "P 65 2 (0 0 1)", "P 65 2 (0 0 1)", 259263261927203266012, false, idM, idM⟩,
  ⟨180, "P 62 2c (0 0 1)", "P 62 2c (0 0 1)", 1034026513023004433884, false, idM, idM⟩,
  ⟨181, "P 64 2c (0 0 -1)", "P 64 2c (0 0 -1)", 517517678959136988636, false, idM, idM⟩,
  ⟨182, "P 6c 2c", "P 6c 2c", 775772095991070711260, false, idM, idM⟩,
  ⟨183, "P 6 -2", "P 6 -2", 4035356305307864348, false, idM, idM⟩,
  ⟨184, "P 6 -2c", "P 6 -2c", 10850720871646524214556, false, idM, idM⟩,
  ⟨185, "P 6c -2", "P 6c -2", 778798607401109032220, false, idM, idM⟩,
  ⟨186, "P 6c -2c", "P 6c -2c", 10075957620550723046684, false, idM, idM⟩,
  ⟨187, "P -6 2", "P -6 2", 5044041372496183680, false, idM, idM⟩,
  ⟨188, "P -6c 2", "P -6c 2", 779807292468297351552, false, idM, idM⟩,
  ⟨189, "P -6 -2", "P -6 -2", 163552354799680, false, idM, idM⟩,
  ⟨190, "P -6c -2c", "P -6c -2c", 774763414648155967552, false, idM, idM⟩,
  ⟨191, "-P 6 2", "-P 6 2", 5044195381634830435, false, idM, idM⟩,
  ⟨192, "-P 6 2c", "-P 6 2c", 10076966459627050012771, false, idM, idM⟩]

theorem rows10_ok : rows10.all (rowCheck functionals) = true := by decide +kernel

end Verif
