import Verif.Hop.Check
/-!
# Kernel evaluation of the table checks, first part
-/

namespace Verif.Hop

theorem hams_hopsOk : hams.all hopsOk = true := by decide +kernel

end Verif.Hop
