/-!
# Reference orders of the rotation texts

Transcribed from src/database/sym_ops_order.rs.
-/

namespace Verif.Data

/-- `ORDER_48`, src/database/sym_ops_order.rs:2-9. -/
def order48 : List String := [
  "x,y,z", "-x,-y,z", "z,x,y", "z,-x,-y", "-z,-x,y", "-z,x,-y",
  "y,z,x", "-y,z,-x", "y,-z,-x", "-y,-z,x", "-y,x,z", "y,-x,z",
  "x,z,-y", "-x,z,y", "y,-x,-z", "-y,x,-z", "-x,y,-z", "x,-y,-z",
  "x,-y,z", "-x,y,z", "y,x,-z", "-y,-x,-z", "-x,-z,-y", "x,-z,y",
  "z,y,-x", "z,-y,x", "-z,y,x", "-z,-y,-x", "-x,-y,-z", "x,y,-z",
  "-z,-x,-y", "-z,x,y", "z,x,-y", "z,-x,y", "-y,-z,-x", "y,-z,x",
  "-y,z,x", "y,z,-x", "-y,-x,z", "y,x,z", "-x,-z,y", "x,-z,-y",
  "x,z,y", "-x,z,-y", "-z,-y,x", "-z,y,-x", "z,-y,-x", "z,y,x"
]

/-- `ORDER_24`, src/database/sym_ops_order.rs:12-37. -/
def order24 : List String := [
  "x,y,z", "-y,x-y,z", "-x+y,-x,z", "-x,-y,z", "y,-x+y,z", "x-y,x,z",
  "y,x,-z", "x-y,-y,-z", "-x,-x+y,-z", "-y,-x,-z", "-x+y,y,-z", "x,x-y,-z",
  "-x,-y,-z", "y,-x+y,-z", "x-y,x,-z", "x,y,-z", "-y,x-y,-z", "-x+y,-x,-z",
  "-y,-x,z", "-x+y,y,z", "x,x-y,z", "y,x,z", "x-y,-y,z", "-x,-x+y,z"
]

/-- `ORDER_12`, src/database/sym_ops_order.rs:40-43. -/
def order12 : List String := [
  "x,y,z", "z,x,y", "y,z,x", "-z,-y,-x", "-y,-x,-z", "-x,-z,-y",
  "-x,-y,-z", "-z,-x,-y", "-y,-z,-x", "z,y,x", "y,x,z", "x,z,y"
]

end Verif.Data
