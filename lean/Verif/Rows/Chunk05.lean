import Verif.Data.Functionals

/-! Generated by tools/gen_rows.py; checked by the kernel. -/

namespace Verif

/-- Rows of the tables. -/
def rows05 : List Row := [
  ⟨60, "-P 2n 2ab", "-P 2a 2n", 287675018474628947235714144, true, ⟨⟨0, 0, -1, -1, 0, 0, 0, 1, 0⟩, ⟨0, 0, 0⟩, 1⟩, ⟨⟨0, -1, 0, 0, 0, 1, -1, 0, 0⟩, ⟨0, 0, 0⟩, 1⟩⟩,
  ⟨60, "-P 2n 2ab", "-P 2bc 2n", 23961103066640145715442784, true, ⟨⟨0, 0, -1, 0, -1, 0, -1, 0, 0⟩, ⟨0, 0, 0⟩, 1⟩, ⟨⟨0, 0, -1, 0, -1, 0, -1, 0, 0⟩, ⟨0, 0, 0⟩, 1⟩⟩,
  ⟨60, "-P 2n 2ab", "-P 2ac 2b", 289508108326721612798899296, true, ⟨⟨0, -1, 0, 0, 0, -1, 1, 0, 0⟩, ⟨0, 0, 0⟩, 1⟩, ⟨⟨0, 0, 1, -1, 0, 0, 0, -1, 0⟩, ⟨0, 0, 0⟩, 1⟩⟩,
  ⟨60, "-P 2n 2ab", "-P 2b 2ac", 22269794889498011765978208, true, ⟨⟨-1, 0, 0, 0, 0, -1, 0, -1, 0⟩, ⟨0, 0, 0⟩, 1⟩, ⟨⟨-1, 0, 0, 0, 0, -1, 0, -1, 0⟩, ⟨0, 0, 0⟩, 1⟩⟩,
  ⟨61, "-P 2ac 2ab", "-P 2ac 2ab", 289377173337286422401528928, true, idM, idM⟩,
  ⟨61, "-P 2ac 2ab", "-P 2bc 2ac", 23971174988904391130625120, true, ⟨⟨-1, 0, 0, 0, 0, -1, 0, -1, 0⟩, ⟨0, 0, 0⟩, 1⟩, ⟨⟨-1, 0, 0, 0, 0, -1, 0, -1, 0⟩, ⟨0, 0, 0⟩, 1⟩⟩,
  ⟨62, "-P 2ac 2n", "-P 2ac 2n", 289376398574035326600361056, true, idM, idM⟩,
  ⟨62, "-P 2ac 2n", "-P 2bc 2a", 23971949752155486931792992, true, ⟨⟨0, -1, 0, -1, 0, 0, 0, 0, -1⟩, ⟨0, 0, 0⟩, 1⟩, ⟨⟨0, -1, 0, -1, 0, 0, 0, 0, -1⟩, ⟨0, 0, 0⟩, 1⟩⟩,
  ⟨62, "-P 2ac 2n", "-P 2c 2ab", 1843936537608309776200800, true, ⟨⟨0, 0, -1, -1, 0, 0, 0, 1, 0⟩, ⟨0, 0, 0⟩, 1⟩, ⟨⟨0, -1, 0, 0, 0, 1, -1, 0, 0⟩, ⟨0, 0, 0⟩, 1⟩⟩,
  ⟨62, "-P 2ac 2n", "-P 2n 2ac", 311504411788582503755953248, true, ⟨⟨0, 0, -1, 0, -1, 0, -1, 0, 0⟩, ⟨0, 0, 0⟩, 1⟩, ⟨⟨0, 0, -1, 0, -1, 0, -1, 0, 0⟩, ⟨0, 0, 0⟩, 1⟩⟩,
  ⟨62, "-P 2ac 2n", "-P 2n 2a", 311505186551833599557121120, true, ⟨⟨0, -1, 0, 0, 0, -1, 1, 0, 0⟩, ⟨0, 0, 0⟩, 1⟩, ⟨⟨0, 0, 1, -1, 0, 0, 0, -1, 0⟩, ⟨0, 0, 0⟩, 1⟩⟩,
  ⟨62, "-P 2ac 2n", "-P 2c 2n", 1843161774357213975032928, true, ⟨⟨-1, 0, 0, 0, 0, -1, 0, -1, 0⟩, ⟨0, 0, 0⟩, 1⟩, ⟨⟨-1, 0, 0, 0, 0, -1, 0, -1, 0⟩, ⟨0, 0, 0⟩, 1⟩⟩,
  ⟨63, "-C 2c 2", "-C 2c 2", 131709752686589195203683, true, idM, idM⟩,
  ⟨63, "-C 2c 2", "-C 2c 2c", 130934989435493394035811, true, ⟨⟨0, -1, 0, -1, 0, 0, 0, 0, -1⟩, ⟨0, 0, 0⟩, 1⟩, ⟨⟨0, -1, 0, -1, 0, 0, 0, 0, -1⟩, ⟨0, 0, 0⟩, 1⟩⟩,
  ⟨63, "-C 2c 2", "-A 2a 2a", 130934989435493394035809, true, ⟨⟨0, 0, -1, -1, 0, 0, 0, 1, 0⟩, ⟨0, 0, 0⟩, 1⟩, ⟨⟨0, -1, 0, 0, 0, 1, -1, 0, 0⟩, ⟨0, 0, 0⟩, 1⟩⟩,
  ⟨63, "-C 2c 2", "-A 2 2a", 10071922264548411847777, true, ⟨⟨0, 0, -1, 0, -1, 0, -1, 0, 0⟩, ⟨0, 0, 0⟩, 1⟩, ⟨⟨0, 0, -1, 0, -1, 0, -1, 0, 0⟩, ⟨0, 0, 0⟩, 1⟩⟩,
  ⟨63, "-C 2c 2", "-B 2 2b", 10071922264548411847778, true, ⟨⟨0, -1, 0, 0, 0, -1, 1, 0, 0⟩, ⟨0, 0, 0⟩, 1⟩, ⟨⟨0, 0, 1, -1, 0, 0, 0, -1, 0⟩, ⟨0, 0, 0⟩, 1⟩⟩,
  ⟨63, "-C 2c 2", "-B 2b 2", 141006911699738809218146, true, ⟨⟨-1, 0, 0, 0, 0, -1, 0, -1, 0⟩, ⟨0, 0, 0⟩, 1⟩, ⟨⟨-1, 0, 0, 0, 0, -1, 0, -1, 0⟩, ⟨0, 0, 0⟩, 1⟩⟩,
  ⟨64, "-C 2bc 2", "-C 2bc 2", 141781674950834610386019, true, idM, idM⟩,
  ⟨64, "-C 2bc 2", "-C 2bc 2bc", 141006911699738809218147, true, ⟨⟨0, -1, 0, -1, 0, 0, 0, 0, -1⟩, ⟨0, 0, 0⟩, 1⟩, ⟨⟨0, -1, 0, -1, 0, 0, 0, 0, -1⟩, ⟨0, 0, 0⟩, 1⟩⟩,
  ⟨64, "-C 2bc 2", "-A 2ac 2ac", 131709752686589195203681, true, ⟨⟨0, 0, -1, -1, 0, 0, 0, 1, 0⟩, ⟨0, 0, 0⟩, 1⟩, ⟨⟨0, -1, 0, 0, 0, 1, -1, 0, 0⟩, ⟨0, 0, 0⟩, 1⟩⟩,
  ⟨64, "-C 2bc 2", "-A 2 2ac", 10846685515644213015649, true, ⟨⟨0, 0, -1, 0, -1, 0, -1, 0, 0⟩, ⟨0, 0, 0⟩, 1⟩, ⟨⟨0, 0, -1, 0, -1, 0, -1, 0, 0⟩, ⟨0, 0, 0⟩, 1⟩⟩,
  ⟨64, "-C 2bc 2", "-B 2 2bc", 10846685515644213015650, true, ⟨⟨0, -1, 0, 0, 0, -1, 1, 0, 0⟩, ⟨0, 0, 0⟩, 1⟩, ⟨⟨0, 0, 1, -1, 0, 0, 0, -1, 0⟩, ⟨0, 0, 0⟩, 1⟩⟩,
  ⟨64, "-C 2bc 2", "-B 2bc 2", 141781674950834610386018, true, ⟨⟨-1, 0, 0, 0, 0, -1, 0, -1, 0⟩, ⟨0, 0, 0⟩, 1⟩, ⟨⟨-1, 0, 0, 0, 0, -1, 0, -1, 0⟩, ⟨0, 0, 0⟩, 1⟩⟩,
  ⟨65, "-C 2 2", "-C 2 2", 302996665443, true, idM, idM⟩,
  ⟨65, "-C 2 2", "-A 2 2", 302996665441, true, ⟨⟨0, 0, -1, -1, 0, 0, 0, 1, 0⟩, ⟨0, 0, 0⟩, 1⟩, ⟨⟨0, -1, 0, 0, 0, 1, -1, 0, 0⟩, ⟨0, 0, 0⟩, 1⟩⟩,
  ⟨65, "-C 2 2", "-B 2 2", 302996665442, true, ⟨⟨-1, 0, 0, 0, 0, -1, 0, -1, 0⟩, ⟨0, 0, 0⟩, 1⟩, ⟨⟨-1, 0, 0, 0, 0, -1, 0, -1, 0⟩, ⟨0, 0, 0⟩, 1⟩⟩,
  ⟨66, "-C 2 2c", "-C 2 2c", 774763251398797833315, true, idM, idM⟩,
  ⟨66, "-C 2 2c", "-A 2a 2", 141006911699738809218145, true, ⟨⟨0, 0, -1, -1, 0, 0, 0, 1, 0⟩, ⟨0, 0, 0⟩, 1⟩, ⟨⟨0, -1, 0, 0, 0, 1, -1, 0, 0⟩, ⟨0, 0, 0⟩, 1⟩⟩,
  ⟨66, "-C 2 2c", "-B 2b 2b", 130934989435493394035810, true, ⟨⟨-1, 0, 0, 0, 0, -1, 0, -1, 0⟩, ⟨0, 0, 0⟩, 1⟩, ⟨⟨-1, 0, 0, 0, 0, -1, 0, -1, 0⟩, ⟨0, 0, 0⟩, 1⟩⟩,
  ⟨67, "-C 2b 2", "-C 2b 2", 10071922264548411847779, true, idM, idM⟩,
  ⟨67, "-C 2b 2", "-C 2b 2b", 10071922264548411847779, true, ⟨⟨1, 0, 0, 0, 1, 0, 0, 0, 1⟩, ⟨3, 3, 0⟩, 1⟩, ⟨⟨1, 0, 0, 0, 1, 0, 0, 0, 1⟩, ⟨-3, -3, 0⟩, 1⟩⟩,
  ⟨67, "-C 2b 2", "-A 2c 2c", 774763251398797833313, true, ⟨⟨0, 0, -1, -1, 0, 0, 0, 1, 0⟩, ⟨0, 0, 0⟩, 1⟩, ⟨⟨0, -1, 0, 0, 0, 1, -1, 0, 0⟩, ⟨0, 0, 0⟩, 1⟩⟩,
  ⟨67, "-C 2b 2", "-A 2 2c", 774763251398797833313, true, ⟨⟨0, 0, -1, -1, 0, 0, 0, 1, 0⟩, ⟨0, 3, 3⟩, 1⟩, ⟨⟨0, -1, 0, 0, 0, 1, -1, 0, 0⟩, ⟨3, -3, 0⟩, 1⟩⟩,
  ⟨67, "-C 2b 2", "-B 2 2c", 774763251398797833314, true, ⟨⟨-1, 0, 0, 0, 0, -1, 0, -1, 0⟩, ⟨3, 0, 3⟩, 1⟩, ⟨⟨-1, 0, 0, 0, 0, -1, 0, -1, 0⟩, ⟨3, 3, 0⟩, 1⟩⟩,
  ⟨67, "-C 2b 2", "-B 2c 2", 774763251398797833314, true, ⟨⟨-1, 0, 0, 0, 0, -1, 0, -1, 0⟩, ⟨0, 0, 0⟩, 1⟩, ⟨⟨-1, 0, 0, 0, 0, -1, 0, -1, 0⟩, ⟨0, 0, 0⟩, 1⟩⟩,
  ⟨68, "C 2 2 -1bc", "C 2 2 -1bc", 10846685515644213015651, true, idM, idM⟩,
  ⟨68, "C 2 2 -1bc", "-C 2b 2bc", 10846685515644213015651, true, ⟨⟨1, 0, 0, 0, 1, 0, 0, 0, 1⟩, ⟨0, 3, 3⟩, 1⟩, ⟨⟨1, 0, 0, 0, 1, 0, 0, 0, 1⟩, ⟨0, -3, -3⟩, 1⟩⟩,
  ⟨68, "C 2 2 -1bc", "C 2 2 -1bc", 10846685515644213015651, true, idM, idM⟩,
  ⟨68, "C 2 2 -1bc", "-C 2b 2c", 10846685515644213015651, true, ⟨⟨1, 0, 0, 0, 1, 0, 0, 0, 1⟩, ⟨3, 0, 3⟩, 1⟩, ⟨⟨1, 0, 0, 0, 1, 0, 0, 0, 1⟩, ⟨-3, 0, -3⟩, 1⟩⟩,
  ⟨68, "C 2 2 -1bc", "A 2 2 -1ac", 141781674950834610386017, true, ⟨⟨0, 0, -1, -1, 0, 0, 0, 1, 0⟩, ⟨0, 0, 0⟩, 1⟩, ⟨⟨0, -1, 0, 0, 0, 1, -1, 0, 0⟩, ⟨0, 0, 0⟩, 1⟩⟩]

theorem rows05_ok : rows05.all (rowCheck functionals) = true := by decide +kernel

end Verif
