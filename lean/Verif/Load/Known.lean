import Verif.Load.Dirs
/-! # C128: which quantities of profiles and polytropes are read -/
namespace Verif.Load
open Verif.Inlist (Str)
noncomputable section

namespace Spec
/-- The entries of the head of a MESA profile. -/
def mesaHead : List String :=
  ["model_number", "num_zones", "initial_mass", "initial_z", "star_age", "time_step", "Teff", "photosphere_L", "photosphere_r",
    "center_eta", "center_h1", "center_he3", "center_he4", "center_c12", "center_n14", "center_o16", "center_ne20",
    "he_core_mass", "c_core_mass", "o_core_mass", "si_core_mass", "fe_core_mass", "neutron_rich_core_mass",
    "tau10_mass", "tau10_radius", "tau100_mass", "tau100_radius", "dynamic_time", "kh_timescale", "nuc_timescale",
    "power_nuc_burn", "power_h_burn", "power_he_burn", "power_neu", "burn_min1", "burn_min2", "time_seconds",
    "version_number", "compiler", "build", "MESA_SDK_version", "date", "star_mass_h1", "star_mass_he3", "star_mass_he4",
    "star_mass_c12", "star_mass_n14", "star_mass_o16", "star_mass_ne20"]
/-- The columns of a MESA profile: structure, energy, mixing, composition. -/
def mesaColumns : List String :=
  ["zone", "mass", "mmid", "q", "radius", "tau", "logT", "logRho", "pressure", "grav", "luminosity", "velocity", "entropy", "csound",
    "mu", "opacity", "gamma_1_adDer", "grada", "gradT", "gradr", "pressure_scale_height", "mlt_mixing_length", "hyeq_lhs", "hyeq_rhs",
    "brunt_N2", "brunt_N2_structure_term", "brunt_N2_composition_term", "lamb_S", "lamb_S2",
    "eps_nuc", "non_nuc_neu", "log_conv_vel", "conv_mixing_type", "log_D_mix", "log_D_conv", "log_D_ovr", "log_D_minimum",
    "x", "y", "z", "h1", "h2", "he3", "he4", "c12", "c13", "n14", "o16", "o17", "ne20", "ne22", "mg24", "al27", "si28", "s32", "ar36"]
/-- A polytrope file: index, points, and the Lane–Emden solution. -/
def polytropeStructure : List String := ["n_poly", "n", "n_r", "z_b", "Delta_b", "Gamma_1", "z", "theta", "dtheta"]
/-- The file of a mode of a polytrope: label, frequency, eigenfunctions. -/
def polytropeMode : List String :=
  ["label", "l", "m", "n", "n_g", "n_p", "n_pg", "l_i", "lambda", "omega", "freq", "freq_frame", "freq_units", "x", "xi_r", "xi_h",
    "eul_phi", "deul_phi", "y_1", "y_2", "y_3", "y_4", "Gamma_1", "Omega_rot"]

/-- What is read under the names: the column, else the entry of the head; nothing else is read. -/
def Reads (columns header : Str → Option V) (names : List String) (d : Dict V) : Prop :=
  (∀ k ∈ names, get d k.toList = match columns k.toList with
    | some v => some v
    | none => header k.toList) ∧
  ∀ k, (∀ k' ∈ names, k ≠ k'.toList) → get d k = none
end Spec

theorem reads_of (columns header : Str → Option V) (t : Table) (names : List String) (h1 : ∀ k ∈ names, k.toList ∈ attrs t)
    (h2 : ∀ k ∈ attrs t, k ∈ names.map String.toList) : Spec.Reads columns header names (readFile columns header (attrs t)) := by
  obtain ⟨-, c2, c3⟩ := C128_contents columns header (attrs t)
  refine ⟨fun k hk => ?_, fun k hk => c3 k fun hm => ?_⟩
  · rw [c2 _ (h1 k hk)]
    cases columns k.toList <;> rfl
  · obtain ⟨k', hk', e⟩ := List.mem_map.1 (h2 k hm)
    exact hk k' hk' e.symm

/-- **C128.** The quantities read of profiles and of files for polytropes, and no others. -/
theorem C128_names (columns header : Str → Option V) :
    Spec.Reads columns header (Spec.mesaHead ++ Spec.mesaColumns) (readFile columns header (attrs mesaTable)) ∧
    Spec.Reads columns header Spec.polytropeStructure (readFile columns header (attrs polyModelTable)) ∧
    Spec.Reads columns header Spec.polytropeMode (readFile columns header (attrs polyOscTable)) :=
  ⟨reads_of _ _ _ _ (by decide +kernel) (by decide +kernel), reads_of _ _ _ _ (by decide +kernel) (by decide +kernel),
    reads_of _ _ _ _ (by decide +kernel) (by decide +kernel)⟩

/-- The columns of the profile figures, of the pre-checks and of the structure are among them. -/
example : ∀ k ∈ ["mass", "radius", "logRho", "logT", "pressure", "csound", "opacity", "brunt_N2", "hyeq_lhs", "hyeq_rhs", "grada",
    "gradT", "gradr", "eps_nuc", "gamma_1_adDer"], k ∈ Spec.mesaHead ++ Spec.mesaColumns := by decide

example : get (readFile (fun k => if k = "dtheta".toList then some (V.ar [0, -1]) else none) (fun _ => none) (attrs polyModelTable)) "dtheta".toList =
    some (V.ar [0, -1]) := by
  rw [(C128_names _ _).2.1.1 "dtheta" (by decide)]; simp

end
end Verif.Load
