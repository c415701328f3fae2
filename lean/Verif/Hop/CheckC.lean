import Verif.Hop.Check
/-!
# Kernel evaluation of the table checks, third part
-/

namespace Verif.Hop

theorem hams_smallOk : hams.all smallOk = true := by decide +kernel
theorem hams_oneElectronOk : hams.all oneElectronOk = true := by decide +kernel

end Verif.Hop
