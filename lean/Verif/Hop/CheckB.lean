import Verif.Hop.Check
/-!
# Kernel evaluation of the table checks, second part
-/

namespace Verif.Hop

theorem hams_distinctOk : hams.all distinctOk = true := by decide +kernel
theorem hams_siteOk : hams.all siteOk = true := by decide +kernel
theorem hams_rowsOk : hams.all rowsOk = true := by decide +kernel
theorem hams_occIndexOk : hams.all occIndexOk = true := by decide +kernel
theorem hams_chargeOk : hams.all chargeOk = true := by decide +kernel
theorem hams_channelChargeOk : hams.all channelChargeOk = true := by decide +kernel

end Verif.Hop
