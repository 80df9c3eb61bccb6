import Verif.Proofs.Mirror

/-! # Changes of basis to the group of opposite hand (written by tools/gen_mirror.py) -/

namespace Verif

def mirrorRows : List MirrorRow := [
  ⟨0, ⟨⟨-1, 0, 0, 0, -1, 0, 0, 0, -1⟩, ⟨0, 0, 0⟩, 1⟩, ⟨⟨-1, 0, 0, 0, -1, 0, 0, 0, -1⟩, ⟨0, 0, 0⟩, 1⟩⟩,
  ⟨2, ⟨⟨-1, 0, 0, 0, -1, 0, 0, 0, -1⟩, ⟨0, 0, 0⟩, 1⟩, ⟨⟨-1, 0, 0, 0, -1, 0, 0, 0, -1⟩, ⟨0, 0, 0⟩, 1⟩⟩,
  ⟨3, ⟨⟨-1, 0, 0, 0, -1, 0, 0, 0, -1⟩, ⟨0, 0, 0⟩, 1⟩, ⟨⟨-1, 0, 0, 0, -1, 0, 0, 0, -1⟩, ⟨0, 0, 0⟩, 1⟩⟩,
  ⟨4, ⟨⟨-1, 0, 0, 0, -1, 0, 0, 0, -1⟩, ⟨0, 0, 0⟩, 1⟩, ⟨⟨-1, 0, 0, 0, -1, 0, 0, 0, -1⟩, ⟨0, 0, 0⟩, 1⟩⟩,
  ⟨15, ⟨⟨-1, 0, 0, 0, -1, 0, 0, 0, -1⟩, ⟨0, 0, 0⟩, 1⟩, ⟨⟨-1, 0, 0, 0, -1, 0, 0, 0, -1⟩, ⟨0, 0, 0⟩, 1⟩⟩,
  ⟨16, ⟨⟨-1, 0, 0, 0, -1, 0, 0, 0, -1⟩, ⟨0, 0, 0⟩, 1⟩, ⟨⟨-1, 0, 0, 0, -1, 0, 0, 0, -1⟩, ⟨0, 0, 0⟩, 1⟩⟩,
  ⟨17, ⟨⟨-1, 0, 0, 0, -1, 0, 0, 0, -1⟩, ⟨0, 0, 0⟩, 1⟩, ⟨⟨-1, 0, 0, 0, -1, 0, 0, 0, -1⟩, ⟨0, 0, 0⟩, 1⟩⟩,
  ⟨18, ⟨⟨-1, 0, 0, 0, -1, 0, 0, 0, -1⟩, ⟨0, 0, 0⟩, 1⟩, ⟨⟨-1, 0, 0, 0, -1, 0, 0, 0, -1⟩, ⟨0, 0, 0⟩, 1⟩⟩,
  ⟨19, ⟨⟨-1, 0, 0, 0, -1, 0, 0, 0, -1⟩, ⟨0, 0, 0⟩, 1⟩, ⟨⟨-1, 0, 0, 0, -1, 0, 0, 0, -1⟩, ⟨0, 0, 0⟩, 1⟩⟩,
  ⟨20, ⟨⟨-1, 0, 0, 0, -1, 0, 0, 0, -1⟩, ⟨0, 0, 0⟩, 1⟩, ⟨⟨-1, 0, 0, 0, -1, 0, 0, 0, -1⟩, ⟨0, 0, 0⟩, 1⟩⟩,
  ⟨21, ⟨⟨-1, 0, 0, 0, -1, 0, 0, 0, -1⟩, ⟨0, 0, 0⟩, 1⟩, ⟨⟨-1, 0, 0, 0, -1, 0, 0, 0, -1⟩, ⟨0, 0, 0⟩, 1⟩⟩,
  ⟨22, ⟨⟨-1, 0, 0, 0, -1, 0, 0, 0, -1⟩, ⟨0, 0, 0⟩, 1⟩, ⟨⟨-1, 0, 0, 0, -1, 0, 0, 0, -1⟩, ⟨0, 0, 0⟩, 1⟩⟩,
  ⟨23, ⟨⟨-1, 0, 0, 0, -1, 0, 0, 0, -1⟩, ⟨0, 0, 0⟩, 1⟩, ⟨⟨-1, 0, 0, 0, -1, 0, 0, 0, -1⟩, ⟨0, 0, 0⟩, 1⟩⟩,
  ⟨74, ⟨⟨-1, 0, 0, 0, -1, 0, 0, 0, -1⟩, ⟨0, 0, 0⟩, 1⟩, ⟨⟨-1, 0, 0, 0, -1, 0, 0, 0, -1⟩, ⟨0, 0, 0⟩, 1⟩⟩,
  ⟨75, ⟨⟨-1, 0, 0, 0, -1, 0, 0, 0, -1⟩, ⟨0, 0, 0⟩, 1⟩, ⟨⟨-1, 0, 0, 0, -1, 0, 0, 0, -1⟩, ⟨0, 0, 0⟩, 1⟩⟩,
  ⟨76, ⟨⟨-1, 0, 0, 0, -1, 0, 0, 0, -1⟩, ⟨0, 0, 0⟩, 1⟩, ⟨⟨-1, 0, 0, 0, -1, 0, 0, 0, -1⟩, ⟨0, 0, 0⟩, 1⟩⟩,
  ⟨77, ⟨⟨-1, 0, 0, 0, -1, 0, 0, 0, -1⟩, ⟨0, 0, 0⟩, 1⟩, ⟨⟨-1, 0, 0, 0, -1, 0, 0, 0, -1⟩, ⟨0, 0, 0⟩, 1⟩⟩,
  ⟨78, ⟨⟨-1, 0, 0, 0, -1, 0, 0, 0, -1⟩, ⟨0, 0, 0⟩, 1⟩, ⟨⟨-1, 0, 0, 0, -1, 0, 0, 0, -1⟩, ⟨0, 0, 0⟩, 1⟩⟩,
  ⟨79, ⟨⟨-1, 0, 0, 0, -1, 0, 0, 0, -1⟩, ⟨0, 6, 0⟩, 1⟩, ⟨⟨-1, 0, 0, 0, -1, 0, 0, 0, -1⟩, ⟨0, 6, 0⟩, 1⟩⟩,
  ⟨88, ⟨⟨-1, 0, 0, 0, -1, 0, 0, 0, -1⟩, ⟨0, 0, 0⟩, 1⟩, ⟨⟨-1, 0, 0, 0, -1, 0, 0, 0, -1⟩, ⟨0, 0, 0⟩, 1⟩⟩,
  ⟨89, ⟨⟨-1, 0, 0, 0, -1, 0, 0, 0, -1⟩, ⟨0, 0, 0⟩, 1⟩, ⟨⟨-1, 0, 0, 0, -1, 0, 0, 0, -1⟩, ⟨0, 0, 0⟩, 1⟩⟩,
  ⟨90, ⟨⟨-1, 0, 0, 0, -1, 0, 0, 0, -1⟩, ⟨0, 0, 0⟩, 1⟩, ⟨⟨-1, 0, 0, 0, -1, 0, 0, 0, -1⟩, ⟨0, 0, 0⟩, 1⟩⟩,
  ⟨91, ⟨⟨-1, 0, 0, 0, -1, 0, 0, 0, -1⟩, ⟨0, 0, 0⟩, 1⟩, ⟨⟨-1, 0, 0, 0, -1, 0, 0, 0, -1⟩, ⟨0, 0, 0⟩, 1⟩⟩,
  ⟨92, ⟨⟨-1, 0, 0, 0, -1, 0, 0, 0, -1⟩, ⟨0, 0, 0⟩, 1⟩, ⟨⟨-1, 0, 0, 0, -1, 0, 0, 0, -1⟩, ⟨0, 0, 0⟩, 1⟩⟩,
  ⟨93, ⟨⟨-1, 0, 0, 0, -1, 0, 0, 0, -1⟩, ⟨0, 0, 0⟩, 1⟩, ⟨⟨-1, 0, 0, 0, -1, 0, 0, 0, -1⟩, ⟨0, 0, 0⟩, 1⟩⟩,
  ⟨94, ⟨⟨-1, 0, 0, 0, -1, 0, 0, 0, -1⟩, ⟨0, 0, 0⟩, 1⟩, ⟨⟨-1, 0, 0, 0, -1, 0, 0, 0, -1⟩, ⟨0, 0, 0⟩, 1⟩⟩,
  ⟨95, ⟨⟨-1, 0, 0, 0, -1, 0, 0, 0, -1⟩, ⟨0, 0, 0⟩, 1⟩, ⟨⟨-1, 0, 0, 0, -1, 0, 0, 0, -1⟩, ⟨0, 0, 0⟩, 1⟩⟩,
  ⟨96, ⟨⟨-1, 0, 0, 0, -1, 0, 0, 0, -1⟩, ⟨0, 0, 0⟩, 1⟩, ⟨⟨-1, 0, 0, 0, -1, 0, 0, 0, -1⟩, ⟨0, 0, 0⟩, 1⟩⟩,
  ⟨97, ⟨⟨-1, 0, 0, 0, -1, 0, 0, 0, -1⟩, ⟨0, 6, 3⟩, 1⟩, ⟨⟨-1, 0, 0, 0, -1, 0, 0, 0, -1⟩, ⟨0, 6, 3⟩, 1⟩⟩,
  ⟨142, ⟨⟨-1, 0, 0, 0, -1, 0, 0, 0, -1⟩, ⟨0, 0, 0⟩, 1⟩, ⟨⟨-1, 0, 0, 0, -1, 0, 0, 0, -1⟩, ⟨0, 0, 0⟩, 1⟩⟩,
  ⟨143, ⟨⟨-1, 0, 0, 0, -1, 0, 0, 0, -1⟩, ⟨0, 0, 0⟩, 1⟩, ⟨⟨-1, 0, 0, 0, -1, 0, 0, 0, -1⟩, ⟨0, 0, 0⟩, 1⟩⟩,
  ⟨144, ⟨⟨-1, 0, 0, 0, -1, 0, 0, 0, -1⟩, ⟨0, 0, 0⟩, 1⟩, ⟨⟨-1, 0, 0, 0, -1, 0, 0, 0, -1⟩, ⟨0, 0, 0⟩, 1⟩⟩,
  ⟨145, ⟨⟨-1, 0, 0, 0, -1, 0, 0, 0, -1⟩, ⟨0, 0, 0⟩, 1⟩, ⟨⟨-1, 0, 0, 0, -1, 0, 0, 0, -1⟩, ⟨0, 0, 0⟩, 1⟩⟩,
  ⟨148, ⟨⟨-1, 0, 0, 0, -1, 0, 0, 0, -1⟩, ⟨0, 0, 0⟩, 1⟩, ⟨⟨-1, 0, 0, 0, -1, 0, 0, 0, -1⟩, ⟨0, 0, 0⟩, 1⟩⟩,
  ⟨149, ⟨⟨-1, 0, 0, 0, -1, 0, 0, 0, -1⟩, ⟨0, 0, 0⟩, 1⟩, ⟨⟨-1, 0, 0, 0, -1, 0, 0, 0, -1⟩, ⟨0, 0, 0⟩, 1⟩⟩,
  ⟨150, ⟨⟨-1, 0, 0, 0, -1, 0, 0, 0, -1⟩, ⟨0, 0, 0⟩, 1⟩, ⟨⟨-1, 0, 0, 0, -1, 0, 0, 0, -1⟩, ⟨0, 0, 0⟩, 1⟩⟩,
  ⟨151, ⟨⟨-1, 0, 0, 0, -1, 0, 0, 0, -1⟩, ⟨0, 0, 0⟩, 1⟩, ⟨⟨-1, 0, 0, 0, -1, 0, 0, 0, -1⟩, ⟨0, 0, 0⟩, 1⟩⟩,
  ⟨152, ⟨⟨-1, 0, 0, 0, -1, 0, 0, 0, -1⟩, ⟨0, 0, 0⟩, 1⟩, ⟨⟨-1, 0, 0, 0, -1, 0, 0, 0, -1⟩, ⟨0, 0, 0⟩, 1⟩⟩,
  ⟨153, ⟨⟨-1, 0, 0, 0, -1, 0, 0, 0, -1⟩, ⟨0, 0, 0⟩, 1⟩, ⟨⟨-1, 0, 0, 0, -1, 0, 0, 0, -1⟩, ⟨0, 0, 0⟩, 1⟩⟩,
  ⟨154, ⟨⟨-1, 0, 0, 0, -1, 0, 0, 0, -1⟩, ⟨0, 0, 0⟩, 1⟩, ⟨⟨-1, 0, 0, 0, -1, 0, 0, 0, -1⟩, ⟨0, 0, 0⟩, 1⟩⟩,
  ⟨167, ⟨⟨-1, 0, 0, 0, -1, 0, 0, 0, -1⟩, ⟨0, 0, 0⟩, 1⟩, ⟨⟨-1, 0, 0, 0, -1, 0, 0, 0, -1⟩, ⟨0, 0, 0⟩, 1⟩⟩,
  ⟨168, ⟨⟨-1, 0, 0, 0, -1, 0, 0, 0, -1⟩, ⟨0, 0, 0⟩, 1⟩, ⟨⟨-1, 0, 0, 0, -1, 0, 0, 0, -1⟩, ⟨0, 0, 0⟩, 1⟩⟩,
  ⟨169, ⟨⟨-1, 0, 0, 0, -1, 0, 0, 0, -1⟩, ⟨0, 0, 0⟩, 1⟩, ⟨⟨-1, 0, 0, 0, -1, 0, 0, 0, -1⟩, ⟨0, 0, 0⟩, 1⟩⟩,
  ⟨170, ⟨⟨-1, 0, 0, 0, -1, 0, 0, 0, -1⟩, ⟨0, 0, 0⟩, 1⟩, ⟨⟨-1, 0, 0, 0, -1, 0, 0, 0, -1⟩, ⟨0, 0, 0⟩, 1⟩⟩,
  ⟨171, ⟨⟨-1, 0, 0, 0, -1, 0, 0, 0, -1⟩, ⟨0, 0, 0⟩, 1⟩, ⟨⟨-1, 0, 0, 0, -1, 0, 0, 0, -1⟩, ⟨0, 0, 0⟩, 1⟩⟩,
  ⟨172, ⟨⟨-1, 0, 0, 0, -1, 0, 0, 0, -1⟩, ⟨0, 0, 0⟩, 1⟩, ⟨⟨-1, 0, 0, 0, -1, 0, 0, 0, -1⟩, ⟨0, 0, 0⟩, 1⟩⟩,
  ⟨176, ⟨⟨-1, 0, 0, 0, -1, 0, 0, 0, -1⟩, ⟨0, 0, 0⟩, 1⟩, ⟨⟨-1, 0, 0, 0, -1, 0, 0, 0, -1⟩, ⟨0, 0, 0⟩, 1⟩⟩,
  ⟨177, ⟨⟨-1, 0, 0, 0, -1, 0, 0, 0, -1⟩, ⟨0, 0, 0⟩, 1⟩, ⟨⟨-1, 0, 0, 0, -1, 0, 0, 0, -1⟩, ⟨0, 0, 0⟩, 1⟩⟩,
  ⟨178, ⟨⟨-1, 0, 0, 0, -1, 0, 0, 0, -1⟩, ⟨0, 0, 0⟩, 1⟩, ⟨⟨-1, 0, 0, 0, -1, 0, 0, 0, -1⟩, ⟨0, 0, 0⟩, 1⟩⟩,
  ⟨179, ⟨⟨-1, 0, 0, 0, -1, 0, 0, 0, -1⟩, ⟨0, 0, 0⟩, 1⟩, ⟨⟨-1, 0, 0, 0, -1, 0, 0, 0, -1⟩, ⟨0, 0, 0⟩, 1⟩⟩,
  ⟨180, ⟨⟨-1, 0, 0, 0, -1, 0, 0, 0, -1⟩, ⟨0, 0, 0⟩, 1⟩, ⟨⟨-1, 0, 0, 0, -1, 0, 0, 0, -1⟩, ⟨0, 0, 0⟩, 1⟩⟩,
  ⟨181, ⟨⟨-1, 0, 0, 0, -1, 0, 0, 0, -1⟩, ⟨0, 0, 0⟩, 1⟩, ⟨⟨-1, 0, 0, 0, -1, 0, 0, 0, -1⟩, ⟨0, 0, 0⟩, 1⟩⟩,
  ⟨194, ⟨⟨-1, 0, 0, 0, -1, 0, 0, 0, -1⟩, ⟨0, 0, 0⟩, 1⟩, ⟨⟨-1, 0, 0, 0, -1, 0, 0, 0, -1⟩, ⟨0, 0, 0⟩, 1⟩⟩,
  ⟨195, ⟨⟨-1, 0, 0, 0, -1, 0, 0, 0, -1⟩, ⟨0, 0, 0⟩, 1⟩, ⟨⟨-1, 0, 0, 0, -1, 0, 0, 0, -1⟩, ⟨0, 0, 0⟩, 1⟩⟩,
  ⟨196, ⟨⟨-1, 0, 0, 0, -1, 0, 0, 0, -1⟩, ⟨0, 0, 0⟩, 1⟩, ⟨⟨-1, 0, 0, 0, -1, 0, 0, 0, -1⟩, ⟨0, 0, 0⟩, 1⟩⟩,
  ⟨197, ⟨⟨-1, 0, 0, 0, -1, 0, 0, 0, -1⟩, ⟨0, 0, 0⟩, 1⟩, ⟨⟨-1, 0, 0, 0, -1, 0, 0, 0, -1⟩, ⟨0, 0, 0⟩, 1⟩⟩,
  ⟨198, ⟨⟨-1, 0, 0, 0, -1, 0, 0, 0, -1⟩, ⟨0, 0, 0⟩, 1⟩, ⟨⟨-1, 0, 0, 0, -1, 0, 0, 0, -1⟩, ⟨0, 0, 0⟩, 1⟩⟩,
  ⟨206, ⟨⟨-1, 0, 0, 0, -1, 0, 0, 0, -1⟩, ⟨0, 0, 0⟩, 1⟩, ⟨⟨-1, 0, 0, 0, -1, 0, 0, 0, -1⟩, ⟨0, 0, 0⟩, 1⟩⟩,
  ⟨207, ⟨⟨-1, 0, 0, 0, -1, 0, 0, 0, -1⟩, ⟨0, 0, 0⟩, 1⟩, ⟨⟨-1, 0, 0, 0, -1, 0, 0, 0, -1⟩, ⟨0, 0, 0⟩, 1⟩⟩,
  ⟨208, ⟨⟨-1, 0, 0, 0, -1, 0, 0, 0, -1⟩, ⟨0, 0, 0⟩, 1⟩, ⟨⟨-1, 0, 0, 0, -1, 0, 0, 0, -1⟩, ⟨0, 0, 0⟩, 1⟩⟩,
  ⟨209, ⟨⟨-1, 0, 0, 0, -1, 0, 0, 0, -1⟩, ⟨3, 3, 3⟩, 1⟩, ⟨⟨-1, 0, 0, 0, -1, 0, 0, 0, -1⟩, ⟨3, 3, 3⟩, 1⟩⟩,
  ⟨210, ⟨⟨-1, 0, 0, 0, -1, 0, 0, 0, -1⟩, ⟨0, 0, 0⟩, 1⟩, ⟨⟨-1, 0, 0, 0, -1, 0, 0, 0, -1⟩, ⟨0, 0, 0⟩, 1⟩⟩,
  ⟨211, ⟨⟨-1, 0, 0, 0, -1, 0, 0, 0, -1⟩, ⟨0, 0, 0⟩, 1⟩, ⟨⟨-1, 0, 0, 0, -1, 0, 0, 0, -1⟩, ⟨0, 0, 0⟩, 1⟩⟩,
  ⟨212, ⟨⟨-1, 0, 0, 0, -1, 0, 0, 0, -1⟩, ⟨0, 0, 0⟩, 1⟩, ⟨⟨-1, 0, 0, 0, -1, 0, 0, 0, -1⟩, ⟨0, 0, 0⟩, 1⟩⟩,
  ⟨213, ⟨⟨-1, 0, 0, 0, -1, 0, 0, 0, -1⟩, ⟨0, 0, 0⟩, 1⟩, ⟨⟨-1, 0, 0, 0, -1, 0, 0, 0, -1⟩, ⟨0, 0, 0⟩, 1⟩⟩]

end Verif
