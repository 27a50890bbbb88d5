import Verif.Model.Orbit

/-
The body-inertial exit state that `Orbiter` reports.
-/

noncomputable section

namespace AMAT

/-- `terminal_r_bi`, `terminal_theta_bi`, `terminal_phi_bi`, `terminal_v_bi`, `terminal_g_bi`, `terminal_psi_bi`
(orbiter.py:332-337); `none` is a NaN flight-path angle. -/
def Terminal.exitStateBi (P : Planet) (s : Terminal) : Option Terminal := do
  let fpa ← s.fpaIe P
  return ⟨s.r, s.vIeMag P, fpa, s.theta, s.phi, s.psi⟩

end AMAT
