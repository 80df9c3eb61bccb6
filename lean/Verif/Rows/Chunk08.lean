import Verif.Data.Functionals

/-! Generated by tools/gen_rows.py; checked by the kernel. -/

namespace Verif

/-- Rows of the tables. -/
def rows08 : List Row := [
  ⟨126, "P 4 2 -1n", "-P 4a 2bc", 1713001548173142867022432, true, ⟨⟨1, 0, 0, 0, 1, 0, 0, 0, 1⟩, ⟨3, 3, 3⟩, 1⟩, ⟨⟨1, 0, 0, 0, 1, 0, 0, 0, 1⟩, ⟨-3, -3, -3⟩, 1⟩⟩,
  ⟨127, "-P 4 2ab", "-P 4 2ab", 1833089852092992048042592, true, idM, idM⟩,
  ⟨128, "-P 4 2n", "-P 4 2n", 1843936537608333264392800, true, idM, idM⟩,
  ⟨129, "P 4ab 2ab -1ab", "P 4ab 2ab -1ab", 130934989435516882227808, true, idM, idM⟩,
  ⟨129, "P 4ab 2ab -1ab", "-P 4a 2a", 130934989435516882227808, true, ⟨⟨1, 0, 0, 0, 1, 0, 0, 0, 1⟩, ⟨3, 9, 0⟩, 1⟩, ⟨⟨1, 0, 0, 0, 1, 0, 0, 0, 1⟩, ⟨-3, -9, 0⟩, 1⟩⟩,
  ⟨130, "P 4ab 2n -1ab", "P 4ab 2n -1ab", 141781674950858098578016, true, idM, idM⟩,
  ⟨130, "P 4ab 2n -1ab", "-P 4a 2ac", 141781674950858098578016, true, ⟨⟨1, 0, 0, 0, 1, 0, 0, 0, 1⟩, ⟨3, 9, 0⟩, 1⟩, ⟨⟨1, 0, 0, 0, 1, 0, 0, 0, 1⟩, ⟨-3, -9, 0⟩, 1⟩⟩,
  ⟨131, "-P 4c 2", "-P 4c 2", 774763251422286025312, true, idM, idM⟩,
  ⟨132, "-P 4c 2c", "-P 4c 2c", 10071922264571900039776, true, idM, idM⟩,
  ⟨133, "P 4n 2c -1n", "P 4n 2c -1n", 1702929625908897451840096, true, idM, idM⟩,
  ⟨133, "P 4n 2c -1n", "-P 4ac 2b", 1702929625908897451840096, true, ⟨⟨1, 0, 0, 0, 1, 0, 0, 0, 1⟩, ⟨3, 9, 3⟩, 1⟩, ⟨⟨1, 0, 0, 0, 1, 0, 0, 0, 1⟩, ⟨-3, -9, -3⟩, 1⟩⟩,
  ⟨134, "P 4n 2 -1n", "P 4n 2 -1n", 1712226784922047065854560, true, idM, idM⟩,
  ⟨134, "P 4n 2 -1n", "-P 4ac 2bc", 1712226784922047065854560, true, ⟨⟨1, 0, 0, 0, 1, 0, 0, 0, 1⟩, ⟨3, 9, 3⟩, 1⟩, ⟨⟨1, 0, 0, 0, 1, 0, 0, 0, 1⟩, ⟨-3, -9, -3⟩, 1⟩⟩,
  ⟨135, "-P 4c 2ab", "-P 4c 2ab", 1833864615344087849210464, true, idM, idM⟩,
  ⟨136, "-P 4n 2n", "-P 4n 2n", 1843161774357237463224928, true, idM, idM⟩,
  ⟨137, "P 4n 2n -1n", "P 4n 2n -1n", 131709752686612683395680, true, idM, idM⟩,
  ⟨137, "P 4n 2n -1n", "-P 4ac 2a", 131709752686612683395680, true, ⟨⟨1, 0, 0, 0, 1, 0, 0, 0, 1⟩, ⟨3, 9, 3⟩, 1⟩, ⟨⟨1, 0, 0, 0, 1, 0, 0, 0, 1⟩, ⟨-3, -9, -3⟩, 1⟩⟩,
  ⟨138, "P 4n 2ab -1n", "P 4n 2ab -1n", 141006911699762297410144, true, idM, idM⟩,
  ⟨138, "P 4n 2ab -1n", "-P 4ac 2ac", 141006911699762297410144, true, ⟨⟨1, 0, 0, 0, 1, 0, 0, 0, 1⟩, ⟨3, 9, 3⟩, 1⟩, ⟨⟨1, 0, 0, 0, 1, 0, 0, 0, 1⟩, ⟨-3, -9, -3⟩, 1⟩⟩]

theorem rows08_ok : rows08.all (rowCheck functionals) = true := by decide +kernel

end Verif
