import Verif.Model.Py

/-! # Announced roles -/

namespace Wamp.Spec

/-- These roles, none with any feature. -/
def plainRoles (names : List String) : PyDict := names.map fun n => (.str n, .dict [(.str "features", .dict [])])

end Wamp.Spec
