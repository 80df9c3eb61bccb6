import Verif.Data.Functionals

/-! Generated by tools/gen_rows.py; checked by the kernel. -/

namespace Verif

/-- Rows of the tables. -/
def rows04 : List Row := [
  ⟨52, "-P 2a 2bc", "-P 2b 2n", 22259722967233766350795872, true, ⟨⟨0, -1, 0, -1, 0, 0, 0, 0, -1⟩, ⟨0, 0, 0⟩, 1⟩, ⟨⟨0, -1, 0, -1, 0, 0, 0, 0, -1⟩, ⟨0, 0, 0⟩, 1⟩⟩,
  ⟨52, "-P 2a 2bc", "-P 2n 2b", 311626049619004544539309152, true, ⟨⟨0, 0, -1, -1, 0, 0, 0, 1, 0⟩, ⟨0, 0, 0⟩, 1⟩, ⟨⟨0, -1, 0, 0, 0, 1, -1, 0, 0⟩, ⟨0, 0, 0⟩, 1⟩⟩,
  ⟨52, "-P 2a 2bc", "-P 2ab 2c", 309933966678611314788676704, true, ⟨⟨0, 0, -1, 0, -1, 0, -1, 0, 0⟩, ⟨0, 0, 0⟩, 1⟩, ⟨⟨0, 0, -1, 0, -1, 0, -1, 0, 0⟩, ⟨0, 0, 0⟩, 1⟩⟩,
  ⟨52, "-P 2a 2bc", "-P 2ab 2n", 309792959766911878976124000, true, ⟨⟨0, -1, 0, 0, 0, -1, 1, 0, 0⟩, ⟨0, 0, 0⟩, 1⟩, ⟨⟨0, 0, 1, -1, 0, 0, 0, -1, 0⟩, ⟨0, 0, 0⟩, 1⟩⟩,
  ⟨52, "-P 2a 2bc", "-P 2n 2bc", 311625274855753448738141280, true, ⟨⟨-1, 0, 0, 0, 0, -1, 0, -1, 0⟩, ⟨0, 0, 0⟩, 1⟩, ⟨⟨-1, 0, 0, 0, 0, -1, 0, -1, 0⟩, ⟨0, 0, 0⟩, 1⟩⟩,
  ⟨53, "-P 2ac 2", "-P 2ac 2", 289498036404457367383716960, true, idM, idM⟩,
  ⟨53, "-P 2ac 2", "-P 2bc 2bc", 23830168077204955318072416, true, ⟨⟨0, -1, 0, -1, 0, 0, 0, 0, -1⟩, ⟨0, 0, 0⟩, 1⟩, ⟨⟨0, -1, 0, -1, 0, 0, 0, 0, -1⟩, ⟨0, 0, 0⟩, 1⟩⟩,
  ⟨53, "-P 2ac 2", "-P 2ab 2ab", 309792185003660783174956128, true, ⟨⟨0, 0, -1, -1, 0, 0, 0, 1, 0⟩, ⟨0, 0, 0⟩, 1⟩, ⟨⟨0, -1, 0, 0, 0, 1, -1, 0, 0⟩, ⟨0, 0, 0⟩, 1⟩⟩,
  ⟨53, "-P 2ac 2", "-P 2 2ac", 131709752686589195203680, true, ⟨⟨0, 0, -1, 0, -1, 0, -1, 0, 0⟩, ⟨0, 0, 0⟩, 1⟩, ⟨⟨0, 0, -1, 0, -1, 0, -1, 0, 0⟩, ⟨0, 0, 0⟩, 1⟩⟩,
  ⟨53, "-P 2ac 2", "-P 2 2bc", 10846685515644213015648, true, ⟨⟨0, -1, 0, 0, 0, -1, 1, 0, 0⟩, ⟨0, 0, 0⟩, 1⟩, ⟨⟨0, 0, 1, -1, 0, 0, 0, -1, 0⟩, ⟨0, 0, 0⟩, 1⟩⟩,
  ⟨53, "-P 2ac 2", "-P 2ab 2", 309933191915360218987508832, true, ⟨⟨-1, 0, 0, 0, 0, -1, 0, -1, 0⟩, ⟨0, 0, 0⟩, 1⟩, ⟨⟨-1, 0, 0, 0, 0, -1, 0, -1, 0⟩, ⟨0, 0, 0⟩, 1⟩⟩,
  ⟨54, "-P 2a 2ac", "-P 2a 2ac", 287664946552364701820531808, true, idM, idM⟩,
  ⟨54, "-P 2a 2ac", "-P 2b 2c", 22138859900062821368607840, true, ⟨⟨0, -1, 0, -1, 0, 0, 0, 0, -1⟩, ⟨0, 0, 0⟩, 1⟩, ⟨⟨0, -1, 0, -1, 0, 0, 0, 0, -1⟩, ⟨0, 0, 0⟩, 1⟩⟩,
  ⟨54, "-P 2a 2ac", "-P 2a 2b", 287805178700813041831916640, true, ⟨⟨0, 0, -1, -1, 0, 0, 0, 1, 0⟩, ⟨0, 0, 0⟩, 1⟩, ⟨⟨0, -1, 0, 0, 0, 1, -1, 0, 0⟩, ⟨0, 0, 0⟩, 1⟩⟩,
  ⟨54, "-P 2a 2ac", "-P 2ac 2c", 289497261641206271582549088, true, ⟨⟨0, 0, -1, 0, -1, 0, -1, 0, 0⟩, ⟨0, 0, 0⟩, 1⟩, ⟨⟨0, 0, -1, 0, -1, 0, -1, 0, 0⟩, ⟨0, 0, 0⟩, 1⟩⟩,
  ⟨54, "-P 2a 2ac", "-P 2bc 2b", 23830942840456051119240288, true, ⟨⟨0, -1, 0, 0, 0, -1, 1, 0, 0⟩, ⟨0, 0, 0⟩, 1⟩, ⟨⟨0, 0, 1, -1, 0, 0, 0, -1, 0⟩, ⟨0, 0, 0⟩, 1⟩⟩,
  ⟨54, "-P 2a 2ac", "-P 2b 2ab", 22258948203982670549628000, true, ⟨⟨-1, 0, 0, 0, 0, -1, 0, -1, 0⟩, ⟨0, 0, 0⟩, 1⟩, ⟨⟨-1, 0, 0, 0, 0, -1, 0, -1, 0⟩, ⟨0, 0, 0⟩, 1⟩⟩,
  ⟨55, "-P 2 2ab", "-P 2 2ab", 141006911699738809218144, true, idM, idM⟩,
  ⟨55, "-P 2 2ab", "-P 2bc 2", 23841014762720296534422624, true, ⟨⟨0, 0, -1, -1, 0, 0, 0, 1, 0⟩, ⟨0, 0, 0⟩, 1⟩, ⟨⟨0, -1, 0, 0, 0, 1, -1, 0, 0⟩, ⟨0, 0, 0⟩, 1⟩⟩,
  ⟨55, "-P 2 2ab", "-P 2ac 2ac", 289366326651771081185178720, true, ⟨⟨-1, 0, 0, 0, 0, -1, 0, -1, 0⟩, ⟨0, 0, 0⟩, 1⟩, ⟨⟨-1, 0, 0, 0, 0, -1, 0, -1, 0⟩, ⟨0, 0, 0⟩, 1⟩⟩,
  ⟨56, "-P 2ab 2ac", "-P 2ab 2ac", 309803031689176124391306336, true, idM, idM⟩,
  ⟨56, "-P 2ab 2ac", "-P 2ac 2bc", 289507333563470516997731424, true, ⟨⟨0, 0, -1, -1, 0, 0, 0, 1, 0⟩, ⟨0, 0, 0⟩, 1⟩, ⟨⟨0, -1, 0, 0, 0, 1, -1, 0, 0⟩, ⟨0, 0, 0⟩, 1⟩⟩,
  ⟨56, "-P 2ab 2ac", "-P 2bc 2ab", 23961877829891241516610656, true, ⟨⟨-1, 0, 0, 0, 0, -1, 0, -1, 0⟩, ⟨0, 0, 0⟩, 1⟩, ⟨⟨-1, 0, 0, 0, 0, -1, 0, -1, 0⟩, ⟨0, 0, 0⟩, 1⟩⟩,
  ⟨57, "-P 2c 2b", "-P 2c 2b", 1713001548173119378830432, true, idM, idM⟩,
  ⟨57, "-P 2c 2b", "-P 2c 2ac", 1833089852092968559850592, true, ⟨⟨0, -1, 0, -1, 0, 0, 0, 0, -1⟩, ⟨0, 0, 0⟩, 1⟩, ⟨⟨0, -1, 0, -1, 0, 0, 0, 0, -1⟩, ⟨0, 0, 0⟩, 1⟩⟩,
  ⟨57, "-P 2c 2b", "-P 2ac 2a", 289367101415022176986346592, true, ⟨⟨0, 0, -1, -1, 0, 0, 0, 1, 0⟩, ⟨0, 0, 0⟩, 1⟩, ⟨⟨0, -1, 0, 0, 0, 1, -1, 0, 0⟩, ⟨0, 0, 0⟩, 1⟩⟩,
  ⟨57, "-P 2c 2b", "-P 2b 2a", 22269020126246915964810336, true, ⟨⟨0, 0, -1, 0, -1, 0, -1, 0, 0⟩, ⟨0, 0, 0⟩, 1⟩, ⟨⟨0, 0, -1, 0, -1, 0, -1, 0, 0⟩, ⟨0, 0, 0⟩, 1⟩⟩,
  ⟨57, "-P 2c 2b", "-P 2a 2ab", 287674243711377851434546272, true, ⟨⟨0, -1, 0, 0, 0, -1, 1, 0, 0⟩, ⟨0, 0, 0⟩, 1⟩, ⟨⟨0, 0, 1, -1, 0, 0, 0, -1, 0⟩, ⟨0, 0, 0⟩, 1⟩⟩,
  ⟨57, "-P 2c 2b", "-P 2bc 2c", 23840239999469200733254752, true, ⟨⟨-1, 0, 0, 0, 0, -1, 0, -1, 0⟩, ⟨0, 0, 0⟩, 1⟩, ⟨⟨-1, 0, 0, 0, 0, -1, 0, -1, 0⟩, ⟨0, 0, 0⟩, 1⟩⟩,
  ⟨58, "-P 2 2n", "-P 2 2n", 141781674950834610386016, true, idM, idM⟩,
  ⟨58, "-P 2 2n", "-P 2n 2", 311636121541268789954491488, true, ⟨⟨0, 0, -1, -1, 0, 0, 0, 1, 0⟩, ⟨0, 0, 0⟩, 1⟩, ⟨⟨0, -1, 0, 0, 0, 1, -1, 0, 0⟩, ⟨0, 0, 0⟩, 1⟩⟩,
  ⟨58, "-P 2 2n", "-P 2n 2n", 311494339866318258340770912, true, ⟨⟨-1, 0, 0, 0, 0, -1, 0, -1, 0⟩, ⟨0, 0, 0⟩, 1⟩, ⟨⟨-1, 0, 0, 0, 0, -1, 0, -1, 0⟩, ⟨0, 0, 0⟩, 1⟩⟩,
  ⟨59, "P 2 2ab -1ab", "P 2 2ab -1ab", 309802256925925028590138464, true, idM, idM⟩,
  ⟨59, "P 2 2ab -1ab", "-P 2ab 2a", 309802256925925028590138464, true, ⟨⟨1, 0, 0, 0, 1, 0, 0, 0, 1⟩, ⟨3, 3, 0⟩, 1⟩, ⟨⟨1, 0, 0, 0, 1, 0, 0, 0, 1⟩, ⟨-3, -3, 0⟩, 1⟩⟩,
  ⟨59, "P 2 2ab -1ab", "P 2bc 2 -1bc", 1712226784922023577662560, true, ⟨⟨0, 0, -1, -1, 0, 0, 0, 1, 0⟩, ⟨0, 0, 0⟩, 1⟩, ⟨⟨0, -1, 0, 0, 0, 1, -1, 0, 0⟩, ⟨0, 0, 0⟩, 1⟩⟩,
  ⟨59, "P 2 2ab -1ab", "-P 2c 2bc", 1712226784922023577662560, true, ⟨⟨0, 0, -1, -1, 0, 0, 0, 1, 0⟩, ⟨0, 3, 3⟩, 1⟩, ⟨⟨0, -1, 0, 0, 0, 1, -1, 0, 0⟩, ⟨3, -3, 0⟩, 1⟩⟩,
  ⟨59, "P 2 2ab -1ab", "P 2ac 2ac -1ac", 1833864615344064361018464, true, ⟨⟨-1, 0, 0, 0, 0, -1, 0, -1, 0⟩, ⟨0, 0, 0⟩, 1⟩, ⟨⟨-1, 0, 0, 0, 0, -1, 0, -1, 0⟩, ⟨0, 0, 0⟩, 1⟩⟩,
  ⟨59, "P 2 2ab -1ab", "-P 2c 2a", 1833864615344064361018464, true, ⟨⟨-1, 0, 0, 0, 0, -1, 0, -1, 0⟩, ⟨3, 0, 3⟩, 1⟩, ⟨⟨-1, 0, 0, 0, 0, -1, 0, -1, 0⟩, ⟨3, 3, 0⟩, 1⟩⟩,
  ⟨60, "-P 2n 2ab", "-P 2n 2ab", 311495114629569354141938784, true, idM, idM⟩,
  ⟨60, "-P 2n 2ab", "-P 2n 2c", 311635346778017694153323616, true, ⟨⟨0, -1, 0, -1, 0, 0, 0, 0, -1⟩, ⟨0, 0, 0⟩, 1⟩, ⟨⟨0, -1, 0, -1, 0, 0, 0, 0, -1⟩, ⟨0, 0, 0⟩, 1⟩⟩]

theorem rows04_ok : rows04.all (rowCheck functionals) = true := by decide +kernel

end Verif
