import Verif.Hop.Check
/-!
# Kernel evaluation of the table checks, fourth part
-/

namespace Verif.Hop

theorem hams_sameElectronOk : hams.all sameElectronOk = true := by decide +kernel

end Verif.Hop
