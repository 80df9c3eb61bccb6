import Verif.Data.Functionals

/-! Generated by tools/gen_rows.py; checked by the kernel. -/

namespace Verif

/-- Rows of the tables. -/
def rows01 : List Row := [
  ⟨1, "P 1", "P 1", 114688, true, idM, idM⟩,
  ⟨2, "-P 1", "-P 1", 469876736, true, idM, idM⟩,
  ⟨3, "P 2y", "P 2y", 114912, true, idM, idM⟩,
  ⟨3, "P 2y", "P 2", 1879162880, true, ⟨⟨-1, 0, 0, 0, 0, -1, 0, -1, 0⟩, ⟨0, 0, 0⟩, 1⟩, ⟨⟨-1, 0, 0, 0, 0, -1, 0, -1, 0⟩, ⟨0, 0, 0⟩, 1⟩⟩,
  ⟨3, "P 2y", "P 2x", 60129656832, true, ⟨⟨0, -1, 0, -1, 0, 0, 0, 0, -1⟩, ⟨0, 0, 0⟩, 1⟩, ⟨⟨0, -1, 0, -1, 0, 0, 0, 0, -1⟩, ⟨0, 0, 0⟩, 1⟩⟩,
  ⟨4, "P 2yb", "P 2yb", 774763251095801282784, true, idM, idM⟩,
  ⟨4, "P 2yb", "P 2c", 774763251097680330752, true, ⟨⟨-1, 0, 0, 0, 0, -1, 0, -1, 0⟩, ⟨0, 0, 0⟩, 1⟩, ⟨⟨-1, 0, 0, 0, 0, -1, 0, -1, 0⟩, ⟨0, 0, 0⟩, 1⟩⟩,
  ⟨4, "P 2yb", "P 2xa", 774763251155930824704, true, ⟨⟨0, -1, 0, -1, 0, 0, 0, 0, -1⟩, ⟨0, 0, 0⟩, 1⟩, ⟨⟨0, -1, 0, -1, 0, 0, 0, 0, -1⟩, ⟨0, 0, 0⟩, 1⟩⟩,
  ⟨5, "C 2y", "C 2y", 114915, true, idM, idM⟩,
  ⟨5, "C 2y", "A 2y", 114913, true, ⟨⟨0, 0, -1, 0, -1, 0, -1, 0, 0⟩, ⟨0, 0, 0⟩, 1⟩, ⟨⟨0, 0, -1, 0, -1, 0, -1, 0, 0⟩, ⟨0, 0, 0⟩, 1⟩⟩,
  ⟨5, "C 2y", "I 2y", 114916, true, ⟨⟨-1, 0, -1, 0, -1, 0, -1, 0, 0⟩, ⟨0, 0, 0⟩, 1⟩, ⟨⟨0, 0, -1, 0, -1, 0, -1, 0, 1⟩, ⟨0, 0, 0⟩, 1⟩⟩,
  ⟨5, "C 2y", "A 2", 1879162881, true, ⟨⟨0, 0, -1, -1, 0, 0, 0, 1, 0⟩, ⟨0, 0, 0⟩, 1⟩, ⟨⟨0, -1, 0, 0, 0, 1, -1, 0, 0⟩, ⟨0, 0, 0⟩, 1⟩⟩,
  ⟨5, "C 2y", "B 2", 1879162882, true, ⟨⟨-1, 0, 0, 0, 0, -1, 0, -1, 0⟩, ⟨0, 0, 0⟩, 1⟩, ⟨⟨-1, 0, 0, 0, 0, -1, 0, -1, 0⟩, ⟨0, 0, 0⟩, 1⟩⟩,
  ⟨5, "C 2y", "I 2", 1879162884, true, ⟨⟨-1, 0, -1, -1, 0, 0, 0, 1, 0⟩, ⟨0, 0, 0⟩, 1⟩, ⟨⟨0, -1, 0, 0, 0, 1, -1, 1, 0⟩, ⟨0, 0, 0⟩, 1⟩⟩,
  ⟨5, "C 2y", "B 2x", 60129656834, true, ⟨⟨0, -1, 0, 0, 0, -1, 1, 0, 0⟩, ⟨0, 0, 0⟩, 1⟩, ⟨⟨0, 0, 1, -1, 0, 0, 0, -1, 0⟩, ⟨0, 0, 0⟩, 1⟩⟩,
  ⟨5, "C 2y", "C 2x", 60129656835, true, ⟨⟨0, -1, 0, -1, 0, 0, 0, 0, -1⟩, ⟨0, 0, 0⟩, 1⟩, ⟨⟨0, -1, 0, -1, 0, 0, 0, 0, -1⟩, ⟨0, 0, 0⟩, 1⟩⟩,
  ⟨5, "C 2y", "I 2x", 60129656836, true, ⟨⟨0, -1, 0, -1, 0, -1, 1, 0, 0⟩, ⟨0, 0, 0⟩, 1⟩, ⟨⟨0, 0, 1, -1, 0, 0, 0, -1, -1⟩, ⟨0, 0, 0⟩, 1⟩⟩,
  ⟨6, "P -2y", "P -2y", 240518283264, true, idM, idM⟩,
  ⟨6, "P -2y", "P -2", 143360, true, ⟨⟨-1, 0, 0, 0, 0, -1, 0, -1, 0⟩, ⟨0, 0, 0⟩, 1⟩, ⟨⟨-1, 0, 0, 0, 0, -1, 0, -1, 0⟩, ⟨0, 0, 0⟩, 1⟩⟩,
  ⟨6, "P -2y", "P -2x", 115584, true, ⟨⟨0, -1, 0, -1, 0, 0, 0, 0, -1⟩, ⟨0, 0, 0⟩, 1⟩, ⟨⟨0, -1, 0, -1, 0, 0, 0, 0, -1⟩, ⟨0, 0, 0⟩, 1⟩⟩,
  ⟨7, "P -2yc", "P -2yc", 774763251336319451136, true, idM, idM⟩,
  ⟨7, "P -2yc", "P -2yac", 10846685515581734633472, true, ⟨⟨-1, 0, -1, 0, -1, 0, 0, 0, 1⟩, ⟨0, 0, 0⟩, 1⟩, ⟨⟨-1, 0, -1, 0, -1, 0, 0, 0, 1⟩, ⟨0, 0, 0⟩, 1⟩⟩,
  ⟨7, "P -2yc", "P -2ya", 10071922264485933465600, true, ⟨⟨0, 0, -1, 0, -1, 0, -1, 0, 0⟩, ⟨0, 0, 0⟩, 1⟩, ⟨⟨0, 0, -1, 0, -1, 0, -1, 0, 0⟩, ⟨0, 0, 0⟩, 1⟩⟩,
  ⟨7, "P -2yc", "P -2a", 774763251095801311232, true, ⟨⟨0, 0, -1, -1, 0, 0, 0, 1, 0⟩, ⟨0, 0, 0⟩, 1⟩, ⟨⟨0, -1, 0, 0, 0, 1, -1, 0, 0⟩, ⟨0, 0, 0⟩, 1⟩⟩,
  ⟨7, "P -2yc", "P -2ab", 10846685515341216493568, true, ⟨⟨-1, 0, -1, 0, 0, -1, 0, -1, 0⟩, ⟨0, 0, 0⟩, 1⟩, ⟨⟨-1, 1, 0, 0, 0, -1, 0, -1, 0⟩, ⟨0, 0, 0⟩, 1⟩⟩,
  ⟨7, "P -2yc", "P -2b", 10071922264245415325696, true, ⟨⟨-1, 0, 0, 0, 0, -1, 0, -1, 0⟩, ⟨0, 0, 0⟩, 1⟩, ⟨⟨-1, 0, 0, 0, 0, -1, 0, -1, 0⟩, ⟨0, 0, 0⟩, 1⟩⟩,
  ⟨7, "P -2yc", "P -2xb", 10071922264245415297920, true, ⟨⟨0, -1, 0, 0, 0, -1, 1, 0, 0⟩, ⟨0, 0, 0⟩, 1⟩, ⟨⟨0, 0, 1, -1, 0, 0, 0, -1, 0⟩, ⟨0, 0, 0⟩, 1⟩⟩,
  ⟨7, "P -2yc", "P -2xbc", 10846685515341216465792, true, ⟨⟨0, -1, 0, -1, 0, -1, 0, 0, -1⟩, ⟨0, 0, 0⟩, 1⟩, ⟨⟨0, -1, 1, -1, 0, 0, 0, 0, -1⟩, ⟨0, 0, 0⟩, 1⟩⟩,
  ⟨7, "P -2yc", "P -2xc", 774763251095801283456, true, ⟨⟨0, -1, 0, -1, 0, 0, 0, 0, -1⟩, ⟨0, 0, 0⟩, 1⟩, ⟨⟨0, -1, 0, -1, 0, 0, 0, 0, -1⟩, ⟨0, 0, 0⟩, 1⟩⟩,
  ⟨8, "C -2y", "C -2y", 240518283267, true, idM, idM⟩,
  ⟨8, "C -2y", "A -2y", 240518283265, true, ⟨⟨0, 0, -1, 0, -1, 0, -1, 0, 0⟩, ⟨0, 0, 0⟩, 1⟩, ⟨⟨0, 0, -1, 0, -1, 0, -1, 0, 0⟩, ⟨0, 0, 0⟩, 1⟩⟩,
  ⟨8, "C -2y", "I -2y", 240518283268, true, ⟨⟨-1, 0, -1, 0, -1, 0, -1, 0, 0⟩, ⟨0, 0, 0⟩, 1⟩, ⟨⟨0, 0, -1, 0, -1, 0, -1, 0, 1⟩, ⟨0, 0, 0⟩, 1⟩⟩,
  ⟨8, "C -2y", "A -2", 143361, true, ⟨⟨0, 0, -1, -1, 0, 0, 0, 1, 0⟩, ⟨0, 0, 0⟩, 1⟩, ⟨⟨0, -1, 0, 0, 0, 1, -1, 0, 0⟩, ⟨0, 0, 0⟩, 1⟩⟩,
  ⟨8, "C -2y", "B -2", 143362, true, ⟨⟨-1, 0, 0, 0, 0, -1, 0, -1, 0⟩, ⟨0, 0, 0⟩, 1⟩, ⟨⟨-1, 0, 0, 0, 0, -1, 0, -1, 0⟩, ⟨0, 0, 0⟩, 1⟩⟩,
  ⟨8, "C -2y", "I -2", 143364, true, ⟨⟨-1, 0, -1, -1, 0, 0, 0, 1, 0⟩, ⟨0, 0, 0⟩, 1⟩, ⟨⟨0, -1, 0, 0, 0, 1, -1, 1, 0⟩, ⟨0, 0, 0⟩, 1⟩⟩,
  ⟨8, "C -2y", "B -2x", 115586, true, ⟨⟨0, -1, 0, 0, 0, -1, 1, 0, 0⟩, ⟨0, 0, 0⟩, 1⟩, ⟨⟨0, 0, 1, -1, 0, 0, 0, -1, 0⟩, ⟨0, 0, 0⟩, 1⟩⟩,
  ⟨8, "C -2y", "C -2x", 115587, true, ⟨⟨0, -1, 0, -1, 0, 0, 0, 0, -1⟩, ⟨0, 0, 0⟩, 1⟩, ⟨⟨0, -1, 0, -1, 0, 0, 0, 0, -1⟩, ⟨0, 0, 0⟩, 1⟩⟩,
  ⟨8, "C -2y", "I -2x", 115588, true, ⟨⟨0, -1, 0, -1, 0, -1, 1, 0, 0⟩, ⟨0, 0, 0⟩, 1⟩, ⟨⟨0, 0, 1, -1, 0, 0, 0, -1, -1⟩, ⟨0, 0, 0⟩, 1⟩⟩,
  ⟨9, "C -2yc", "C -2yc", 774763251336319451139, true, idM, idM⟩,
  ⟨9, "C -2yc", "A -2yac", 774763251336319451137, true, ⟨⟨0, 0, -1, 0, -1, 0, -1, 0, 0⟩, ⟨0, 3, 0⟩, 1⟩, ⟨⟨0, 0, -1, 0, -1, 0, -1, 0, 0⟩, ⟨0, 3, 0⟩, 1⟩⟩,
  ⟨9, "C -2yc", "I -2ya", 774763251336319451140, true, ⟨⟨-1, 0, -1, 0, -1, 0, -1, 0, 0⟩, ⟨0, 0, 0⟩, 1⟩, ⟨⟨0, 0, -1, 0, -1, 0, -1, 0, 1⟩, ⟨0, 0, 0⟩, 1⟩⟩,
  ⟨9, "C -2yc", "A -2ya", 774763251336319451137, true, ⟨⟨0, 0, -1, 0, -1, 0, -1, 0, 0⟩, ⟨0, 0, 0⟩, 1⟩, ⟨⟨0, 0, -1, 0, -1, 0, -1, 0, 0⟩, ⟨0, 0, 0⟩, 1⟩⟩,
  ⟨9, "C -2yc", "C -2ybc", 774763251336319451139, true, ⟨⟨1, 0, 0, 0, 1, 0, 0, 0, 1⟩, ⟨0, 3, 0⟩, 1⟩, ⟨⟨1, 0, 0, 0, 1, 0, 0, 0, 1⟩, ⟨0, -3, 0⟩, 1⟩⟩,
  ⟨9, "C -2yc", "I -2yc", 774763251336319451140, true, ⟨⟨-1, 0, -1, 0, -1, 0, -1, 0, 0⟩, ⟨0, 3, 0⟩, 1⟩, ⟨⟨0, 0, -1, 0, -1, 0, -1, 0, 1⟩, ⟨0, 3, 0⟩, 1⟩⟩,
  ⟨9, "C -2yc", "A -2a", 774763251095801311233, true, ⟨⟨0, 0, -1, -1, 0, 0, 0, 1, 0⟩, ⟨0, 0, 0⟩, 1⟩, ⟨⟨0, -1, 0, 0, 0, 1, -1, 0, 0⟩, ⟨0, 0, 0⟩, 1⟩⟩,
  ⟨9, "C -2yc", "B -2bc", 774763251095801311234, true, ⟨⟨-1, 0, 0, 0, 0, -1, 0, -1, 0⟩, ⟨0, 0, 3⟩, 1⟩, ⟨⟨-1, 0, 0, 0, 0, -1, 0, -1, 0⟩, ⟨0, 3, 0⟩, 1⟩⟩,
  ⟨9, "C -2yc", "I -2b", 774763251095801311236, true, ⟨⟨-1, 0, -1, -1, 0, 0, 0, 1, 0⟩, ⟨0, 0, 3⟩, 1⟩, ⟨⟨0, -1, 0, 0, 0, 1, -1, 1, 0⟩, ⟨0, -3, 0⟩, 1⟩⟩,
  ⟨9, "C -2yc", "B -2b", 774763251095801311234, true, ⟨⟨-1, 0, 0, 0, 0, -1, 0, -1, 0⟩, ⟨0, 0, 0⟩, 1⟩, ⟨⟨-1, 0, 0, 0, 0, -1, 0, -1, 0⟩, ⟨0, 0, 0⟩, 1⟩⟩,
  ⟨9, "C -2yc", "A -2ac", 774763251095801311233, true, ⟨⟨0, 0, -1, -1, 0, 0, 0, 1, 0⟩, ⟨0, 0, 3⟩, 1⟩, ⟨⟨0, -1, 0, 0, 0, 1, -1, 0, 0⟩, ⟨0, -3, 0⟩, 1⟩⟩,
  ⟨9, "C -2yc", "I -2a", 774763251095801311236, true, ⟨⟨-1, 0, -1, -1, 0, 0, 0, 1, 0⟩, ⟨0, 0, 0⟩, 1⟩, ⟨⟨0, -1, 0, 0, 0, 1, -1, 1, 0⟩, ⟨0, 0, 0⟩, 1⟩⟩,
  ⟨9, "C -2yc", "B -2xb", 774763251095801283458, true, ⟨⟨0, -1, 0, 0, 0, -1, 1, 0, 0⟩, ⟨0, 0, 0⟩, 1⟩, ⟨⟨0, 0, 1, -1, 0, 0, 0, -1, 0⟩, ⟨0, 0, 0⟩, 1⟩⟩,
  ⟨9, "C -2yc", "C -2xbc", 774763251095801283459, true, ⟨⟨0, -1, 0, -1, 0, 0, 0, 0, -1⟩, ⟨3, 0, 0⟩, 1⟩, ⟨⟨0, -1, 0, -1, 0, 0, 0, 0, -1⟩, ⟨0, 3, 0⟩, 1⟩⟩,
  ⟨9, "C -2yc", "I -2xc", 774763251095801283460, true, ⟨⟨0, -1, 0, -1, 0, -1, 1, 0, 0⟩, ⟨3, 0, 0⟩, 1⟩, ⟨⟨0, 0, 1, -1, 0, 0, 0, -1, -1⟩, ⟨0, 3, 0⟩, 1⟩⟩,
  ⟨9, "C -2yc", "C -2xc", 774763251095801283459, true, ⟨⟨0, -1, 0, -1, 0, 0, 0, 0, -1⟩, ⟨0, 0, 0⟩, 1⟩, ⟨⟨0, -1, 0, -1, 0, 0, 0, 0, -1⟩, ⟨0, 0, 0⟩, 1⟩⟩,
  ⟨9, "C -2yc", "B -2xbc", 774763251095801283458, true, ⟨⟨0, -1, 0, 0, 0, -1, 1, 0, 0⟩, ⟨3, 0, 0⟩, 1⟩, ⟨⟨0, 0, 1, -1, 0, 0, 0, -1, 0⟩, ⟨0, 3, 0⟩, 1⟩⟩,
  ⟨9, "C -2yc", "I -2xb", 774763251095801283460, true, ⟨⟨0, -1, 0, -1, 0, -1, 1, 0, 0⟩, ⟨0, 0, 0⟩, 1⟩, ⟨⟨0, 0, 1, -1, 0, 0, 0, -1, -1⟩, ⟨0, 0, 0⟩, 1⟩⟩,
  ⟨10, "-P 2y", "-P 2y", 240988045536, true, idM, idM⟩,
  ⟨10, "-P 2y", "-P 2", 2348953600, true, ⟨⟨-1, 0, 0, 0, 0, -1, 0, -1, 0⟩, ⟨0, 0, 0⟩, 1⟩, ⟨⟨-1, 0, 0, 0, 0, -1, 0, -1, 0⟩, ⟨0, 0, 0⟩, 1⟩⟩,
  ⟨10, "-P 2y", "-P 2x", 60599419776, true, ⟨⟨0, -1, 0, -1, 0, 0, 0, 0, -1⟩, ⟨0, 0, 0⟩, 1⟩, ⟨⟨0, -1, 0, -1, 0, 0, 0, 0, -1⟩, ⟨0, 0, 0⟩, 1⟩⟩,
  ⟨11, "-P 2yb", "-P 2yb", 10071922264486403227872, true, idM, idM⟩,
  ⟨11, "-P 2yb", "-P 2c", 774763251098150121472, true, ⟨⟨-1, 0, 0, 0, 0, -1, 0, -1, 0⟩, ⟨0, 0, 0⟩, 1⟩, ⟨⟨-1, 0, 0, 0, 0, -1, 0, -1, 0⟩, ⟨0, 0, 0⟩, 1⟩⟩,
  ⟨11, "-P 2yb", "-P 2xa", 130934989435250996790144, true, ⟨⟨0, -1, 0, -1, 0, 0, 0, 0, -1⟩, ⟨0, 0, 0⟩, 1⟩, ⟨⟨0, -1, 0, -1, 0, 0, 0, 0, -1⟩, ⟨0, 0, 0⟩, 1⟩⟩,
  ⟨12, "-C 2y", "-C 2y", 240988045539, true, idM, idM⟩,
  ⟨12, "-C 2y", "-A 2y", 240988045537, true, ⟨⟨0, 0, -1, 0, -1, 0, -1, 0, 0⟩, ⟨0, 0, 0⟩, 1⟩, ⟨⟨0, 0, -1, 0, -1, 0, -1, 0, 0⟩, ⟨0, 0, 0⟩, 1⟩⟩,
  ⟨12, "-C 2y", "-I 2y", 240988045540, true, ⟨⟨-1, 0, -1, 0, -1, 0, -1, 0, 0⟩, ⟨0, 0, 0⟩, 1⟩, ⟨⟨0, 0, -1, 0, -1, 0, -1, 0, 1⟩, ⟨0, 0, 0⟩, 1⟩⟩,
  ⟨12, "-C 2y", "-A 2", 2348953601, true, ⟨⟨0, 0, -1, -1, 0, 0, 0, 1, 0⟩, ⟨0, 0, 0⟩, 1⟩, ⟨⟨0, -1, 0, 0, 0, 1, -1, 0, 0⟩, ⟨0, 0, 0⟩, 1⟩⟩,
  ⟨12, "-C 2y", "-B 2", 2348953602, true, ⟨⟨-1, 0, 0, 0, 0, -1, 0, -1, 0⟩, ⟨0, 0, 0⟩, 1⟩, ⟨⟨-1, 0, 0, 0, 0, -1, 0, -1, 0⟩, ⟨0, 0, 0⟩, 1⟩⟩,
  ⟨12, "-C 2y", "-I 2", 2348953604, true, ⟨⟨-1, 0, -1, -1, 0, 0, 0, 1, 0⟩, ⟨0, 0, 0⟩, 1⟩, ⟨⟨0, -1, 0, 0, 0, 1, -1, 1, 0⟩, ⟨0, 0, 0⟩, 1⟩⟩,
  ⟨12, "-C 2y", "-B 2x", 60599419778, true, ⟨⟨0, -1, 0, 0, 0, -1, 1, 0, 0⟩, ⟨0, 0, 0⟩, 1⟩, ⟨⟨0, 0, 1, -1, 0, 0, 0, -1, 0⟩, ⟨0, 0, 0⟩, 1⟩⟩,
  ⟨12, "-C 2y", "-C 2x", 60599419779, true, ⟨⟨0, -1, 0, -1, 0, 0, 0, 0, -1⟩, ⟨0, 0, 0⟩, 1⟩, ⟨⟨0, -1, 0, -1, 0, 0, 0, 0, -1⟩, ⟨0, 0, 0⟩, 1⟩⟩,
  ⟨12, "-C 2y", "-I 2x", 60599419780, true, ⟨⟨0, -1, 0, -1, 0, -1, 1, 0, 0⟩, ⟨0, 0, 0⟩, 1⟩, ⟨⟨0, 0, 1, -1, 0, 0, 0, -1, -1⟩, ⟨0, 0, 0⟩, 1⟩⟩,
  ⟨13, "-P 2yc", "-P 2yc", 774763251336789213408, true, idM, idM⟩,
  ⟨13, "-P 2yc", "-P 2yac", 131709752686527186583776, true, ⟨⟨-1, 0, -1, 0, -1, 0, 0, 0, 1⟩, ⟨0, 0, 0⟩, 1⟩, ⟨⟨-1, 0, -1, 0, -1, 0, 0, 0, 1⟩, ⟨0, 0, 0⟩, 1⟩⟩,
  ⟨13, "-P 2yc", "-P 2ya", 130934989435431385415904, true, ⟨⟨0, 0, -1, 0, -1, 0, -1, 0, 0⟩, ⟨0, 0, 0⟩, 1⟩, ⟨⟨0, 0, -1, 0, -1, 0, -1, 0, 0⟩, ⟨0, 0, 0⟩, 1⟩⟩,
  ⟨13, "-P 2yc", "-P 2a", 130934989435192746323968, true, ⟨⟨0, 0, -1, -1, 0, 0, 0, 1, 0⟩, ⟨0, 0, 0⟩, 1⟩, ⟨⟨0, -1, 0, 0, 0, 1, -1, 0, 0⟩, ⟨0, 0, 0⟩, 1⟩⟩,
  ⟨13, "-P 2yc", "-P 2ab", 141006911699438161506304, true, ⟨⟨-1, 0, -1, 0, 0, -1, 0, -1, 0⟩, ⟨0, 0, 0⟩, 1⟩, ⟨⟨-1, 1, 0, 0, 0, -1, 0, -1, 0⟩, ⟨0, 0, 0⟩, 1⟩⟩,
  ⟨13, "-P 2yc", "-P 2b", 10071922264247764135936, true, ⟨⟨-1, 0, 0, 0, 0, -1, 0, -1, 0⟩, ⟨0, 0, 0⟩, 1⟩, ⟨⟨-1, 0, 0, 0, 0, -1, 0, -1, 0⟩, ⟨0, 0, 0⟩, 1⟩⟩,
  ⟨13, "-P 2yc", "-P 2xb", 10071922264306014602112, true, ⟨⟨0, -1, 0, 0, 0, -1, 1, 0, 0⟩, ⟨0, 0, 0⟩, 1⟩, ⟨⟨0, 0, 1, -1, 0, 0, 0, -1, 0⟩, ⟨0, 0, 0⟩, 1⟩⟩,
  ⟨13, "-P 2yc", "-P 2xbc", 10846685515401815769984, true, ⟨⟨0, -1, 0, -1, 0, -1, 0, 0, -1⟩, ⟨0, 0, 0⟩, 1⟩, ⟨⟨0, -1, 1, -1, 0, 0, 0, 0, -1⟩, ⟨0, 0, 0⟩, 1⟩⟩,
  ⟨13, "-P 2yc", "-P 2xc", 774763251156400587648, true, ⟨⟨0, -1, 0, -1, 0, 0, 0, 0, -1⟩, ⟨0, 0, 0⟩, 1⟩, ⟨⟨0, -1, 0, -1, 0, 0, 0, 0, -1⟩, ⟨0, 0, 0⟩, 1⟩⟩,
  ⟨14, "-P 2ybc", "-P 2ybc", 10846685515582204395744, true, idM, idM⟩,
  ⟨14, "-P 2ybc", "-P 2yn", 141781674950772601766112, true, ⟨⟨-1, 0, -1, 0, -1, 0, 0, 0, 1⟩, ⟨0, 0, 0⟩, 1⟩, ⟨⟨-1, 0, -1, 0, -1, 0, 0, 0, 1⟩, ⟨0, 0, 0⟩, 1⟩⟩,
  ⟨14, "-P 2ybc", "-P 2yab", 141006911699676800598240, true, ⟨⟨0, 0, -1, 0, -1, 0, -1, 0, 0⟩, ⟨0, 0, 0⟩, 1⟩, ⟨⟨0, 0, -1, 0, -1, 0, -1, 0, 0⟩, ⟨0, 0, 0⟩, 1⟩⟩,
  ⟨14, "-P 2ybc", "-P 2ac", 131709752686288547491840, true, ⟨⟨0, 0, -1, -1, 0, 0, 0, 1, 0⟩, ⟨0, 0, 0⟩, 1⟩, ⟨⟨0, -1, 0, 0, 0, 1, -1, 0, 0⟩, ⟨0, 0, 0⟩, 1⟩⟩,
  ⟨14, "-P 2ybc", "-P 2n", 141781674950533962674176, true, ⟨⟨-1, 0, -1, 0, 0, -1, 0, -1, 0⟩, ⟨0, 0, 0⟩, 1⟩, ⟨⟨-1, 1, 0, 0, 0, -1, 0, -1, 0⟩, ⟨0, 0, 0⟩, 1⟩⟩,
  ⟨14, "-P 2ybc", "-P 2bc", 10846685515343565303808, true, ⟨⟨-1, 0, 0, 0, 0, -1, 0, -1, 0⟩, ⟨0, 0, 0⟩, 1⟩, ⟨⟨-1, 0, 0, 0, 0, -1, 0, -1, 0⟩, ⟨0, 0, 0⟩, 1⟩⟩,
  ⟨14, "-P 2ybc", "-P 2xab", 141006911699496411972480, true, ⟨⟨0, -1, 0, 0, 0, -1, 1, 0, 0⟩, ⟨0, 0, 0⟩, 1⟩, ⟨⟨0, 0, 1, -1, 0, 0, 0, -1, 0⟩, ⟨0, 0, 0⟩, 1⟩⟩,
  ⟨14, "-P 2ybc", "-P 2xn", 141781674950592213140352, true, ⟨⟨0, -1, 0, -1, 0, -1, 0, 0, -1⟩, ⟨0, 0, 0⟩, 1⟩, ⟨⟨0, -1, 1, -1, 0, 0, 0, 0, -1⟩, ⟨0, 0, 0⟩, 1⟩⟩,
  ⟨14, "-P 2ybc", "-P 2xac", 131709752686346797958016, true, ⟨⟨0, -1, 0, -1, 0, 0, 0, 0, -1⟩, ⟨0, 0, 0⟩, 1⟩, ⟨⟨0, -1, 0, -1, 0, 0, 0, 0, -1⟩, ⟨0, 0, 0⟩, 1⟩⟩,
  ⟨15, "-C 2yc", "-C 2yc", 774763251336789213411, true, idM, idM⟩,
  ⟨15, "-C 2yc", "-A 2yac", 774763251336789213409, true, ⟨⟨0, 0, -1, 0, -1, 0, -1, 0, 0⟩, ⟨0, 3, 3⟩, 1⟩, ⟨⟨0, 0, -1, 0, -1, 0, -1, 0, 0⟩, ⟨3, 3, 0⟩, 1⟩⟩,
  ⟨15, "-C 2yc", "-I 2ya", 774763251336789213412, true, ⟨⟨-1, 0, -1, 0, -1, 0, -1, 0, 0⟩, ⟨0, 0, 0⟩, 1⟩, ⟨⟨0, 0, -1, 0, -1, 0, -1, 0, 1⟩, ⟨0, 0, 0⟩, 1⟩⟩,
  ⟨15, "-C 2yc", "-A 2ya", 774763251336789213409, true, ⟨⟨0, 0, -1, 0, -1, 0, -1, 0, 0⟩, ⟨0, 0, 0⟩, 1⟩, ⟨⟨0, 0, -1, 0, -1, 0, -1, 0, 0⟩, ⟨0, 0, 0⟩, 1⟩⟩,
  ⟨15, "-C 2yc", "-C 2ybc", 774763251336789213411, true, ⟨⟨1, 0, 0, 0, 1, 0, 0, 0, 1⟩, ⟨3, 3, 0⟩, 1⟩, ⟨⟨1, 0, 0, 0, 1, 0, 0, 0, 1⟩, ⟨-3, -3, 0⟩, 1⟩⟩,
  ⟨15, "-C 2yc", "-I 2yc", 774763251336789213412, true, ⟨⟨-1, 0, -1, 0, -1, 0, -1, 0, 0⟩, ⟨3, 3, 3⟩, 1⟩, ⟨⟨0, 0, -1, 0, -1, 0, -1, 0, 1⟩, ⟨3, 3, 0⟩, 1⟩⟩,
  ⟨15, "-C 2yc", "-A 2a", 774763251098150121473, true, ⟨⟨0, 0, -1, -1, 0, 0, 0, 1, 0⟩, ⟨0, 0, 0⟩, 1⟩, ⟨⟨0, -1, 0, 0, 0, 1, -1, 0, 0⟩, ⟨0, 0, 0⟩, 1⟩⟩,
  ⟨15, "-C 2yc", "-B 2bc", 774763251098150121474, true, ⟨⟨-1, 0, 0, 0, 0, -1, 0, -1, 0⟩, ⟨3, 0, 3⟩, 1⟩, ⟨⟨-1, 0, 0, 0, 0, -1, 0, -1, 0⟩, ⟨3, 3, 0⟩, 1⟩⟩,
  ⟨15, "-C 2yc", "-I 2b", 774763251098150121476, true, ⟨⟨-1, 0, -1, -1, 0, 0, 0, 1, 0⟩, ⟨3, 3, 3⟩, 1⟩, ⟨⟨0, -1, 0, 0, 0, 1, -1, 1, 0⟩, ⟨3, -3, 0⟩, 1⟩⟩,
  ⟨15, "-C 2yc", "-B 2b", 774763251098150121474, true, ⟨⟨-1, 0, 0, 0, 0, -1, 0, -1, 0⟩, ⟨0, 0, 0⟩, 1⟩, ⟨⟨-1, 0, 0, 0, 0, -1, 0, -1, 0⟩, ⟨0, 0, 0⟩, 1⟩⟩,
  ⟨15, "-C 2yc", "-A 2ac", 774763251098150121473, true, ⟨⟨0, 0, -1, -1, 0, 0, 0, 1, 0⟩, ⟨0, 3, 3⟩, 1⟩, ⟨⟨0, -1, 0, 0, 0, 1, -1, 0, 0⟩, ⟨3, -3, 0⟩, 1⟩⟩,
  ⟨15, "-C 2yc", "-I 2a", 774763251098150121476, true, ⟨⟨-1, 0, -1, -1, 0, 0, 0, 1, 0⟩, ⟨0, 0, 0⟩, 1⟩, ⟨⟨0, -1, 0, 0, 0, 1, -1, 1, 0⟩, ⟨0, 0, 0⟩, 1⟩⟩,
  ⟨15, "-C 2yc", "-B 2xb", 774763251156400587650, true, ⟨⟨0, -1, 0, 0, 0, -1, 1, 0, 0⟩, ⟨0, 0, 0⟩, 1⟩, ⟨⟨0, 0, 1, -1, 0, 0, 0, -1, 0⟩, ⟨0, 0, 0⟩, 1⟩⟩,
  ⟨15, "-C 2yc", "-C 2xbc", 774763251156400587651, true, ⟨⟨0, -1, 0, -1, 0, 0, 0, 0, -1⟩, ⟨3, 3, 0⟩, 1⟩, ⟨⟨0, -1, 0, -1, 0, 0, 0, 0, -1⟩, ⟨3, 3, 0⟩, 1⟩⟩]

theorem rows01_ok : rows01.all (rowCheck functionals) = true := by decide +kernel

end Verif
