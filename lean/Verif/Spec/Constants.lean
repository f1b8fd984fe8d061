import Verif.Spec.Standards

/-!
# Laws of the physical constants

The values are those of the SI Brochure (2019) and of CODATA 2018, the relations those of the textbooks; the library
ships CODATA 2006, so each comes with a relative tolerance.  Constants with a negative value (magnetic moments and
g-factors of the electron, muon, neutron and helion, the Sackur-Tetrode constants) are left out.
-/

namespace PQ

/-- The constant `name` is `p / q * π ^ pi` times powers of other constants and of units, up to a relative error of
`10 ^ -tol`. -/
structure Law where
  name : String
  p : Nat
  q : Nat
  pi : Int
  consts : List (String × Int)
  units : List (String × Int)
  tol : Nat

/-- The law holds in a state of the library, in which the constants are known and the units go by the names the registry
binds: whatever the sizes of the base units, the size of the constant is what the law says times a number `ρ` close
to one. -/
def Law.Holds {K : Type _} [Field K] [LinearOrder K] [RPow K] (w : World K) (π : K) (s : Law) : Prop :=
  (⟨.constant, s.name⟩ : UKey) ∈ w.units.map Prod.fst ∧
  (∀ x ∈ s.consts, (⟨.constant, x.1⟩ : UKey) ∈ w.units.map Prod.fst) ∧
  ∃ us : List UKey, List.Forall₂ (fun (x : String × Int) k => Dict.get? w.registry x.1 = some k) s.units us ∧
    ∃ ρ : K, |ρ - 1| ≤ 1 / 10 ^ s.tol ∧ ∀ v : Valuation w,
      v.size (unitDim ⟨.constant, s.name⟩) = ρ * ((s.p : K) / s.q * π ^ s.pi *
        ((s.consts.map fun x => v.size (unitDim ⟨.constant, x.1⟩) ^ x.2).prod *
        (List.zipWith (fun (x : String × Int) k => v.size (unitDim k) ^ x.2) s.units us).prod))

/-- Values of the constants and relations between them. -/
def laws : List Law := [
  -- values (SI Brochure 2019, CODATA 2018)
  ⟨"natural_unit_of_velocity", 299792458, 1, 0, [], [("meter", 1), ("second", -1)], 15⟩,
  ⟨"Planck_constant", 132521403, 2 * 10 ^ 41, 0, [], [("joule", 1), ("second", 1)], 6⟩,
  ⟨"elementary_charge", 801088317, 5 * 10 ^ 27, 0, [], [("coulomb", 1)], 6⟩,
  ⟨"Boltzmann_constant", 1380649, 10 ^ 29, 0, [], [("joule", 1), ("kelvin", -1)], 5⟩,
  ⟨"Avogadro_constant", 602214076 * 10 ^ 15, 1, 0, [], [("mole", -1)], 6⟩,
  ⟨"Newtonian_constant_of_gravitation", 66743, 10 ^ 15, 0, [], [("meter", 3), ("kilogram", -1), ("second", -2)], 5⟩,
  ⟨"astronomical_unit", 149597870700, 1, 0, [], [("meter", 1)], 9⟩,
  ⟨"electron_mass", 18218767403, 2 * 10 ^ 40, 0, [], [("kilogram", 1)], 6⟩,
  ⟨"muon_mass", 1883531627, 10 ^ 37, 0, [], [("kilogram", 1)], 6⟩,
  ⟨"tau_mass", 158377, 5 * 10 ^ 31, 0, [], [("kilogram", 1)], 4⟩,
  ⟨"proton_mass", 167262192369, 10 ^ 38, 0, [], [("kilogram", 1)], 6⟩,
  ⟨"neutron_mass", 41873187451, 25 * 10 ^ 36, 0, [], [("kilogram", 1)], 6⟩,
  ⟨"deuteron_mass", 8358959431, 25 * 10 ^ 35, 0, [], [("kilogram", 1)], 6⟩,
  ⟨"helion_mass", 12516031949, 25 * 10 ^ 35, 0, [], [("kilogram", 1)], 6⟩,
  ⟨"triton_mass", 25036783723, 5 * 10 ^ 36, 0, [], [("kilogram", 1)], 6⟩,
  ⟨"alpha_particle_mass", 66446573357, 10 ^ 37, 0, [], [("kilogram", 1)], 6⟩,
  ⟨"atomic_mass_constant", 8302695333, 5 * 10 ^ 36, 0, [], [("kilogram", 1)], 6⟩,
  ⟨"fine_structure_constant", 72973525693, 10 ^ 13, 0, [], [], 8⟩,
  ⟨"Rydberg_constant", 68585822301, 6250, 0, [], [("meter", -1)], 10⟩,
  ⟨"Bohr_radius", 529177210903, 10 ^ 22, 0, [], [("meter", 1)], 8⟩,
  ⟨"classical_electron_radius", 14089701631, 5 * 10 ^ 24, 0, [], [("meter", 1)], 7⟩,
  ⟨"Thomson_cross_section", 66524587321, 10 ^ 39, 0, [], [("meter", 2)], 7⟩,
  ⟨"Bohr_magneton", 92740100783, 10 ^ 34, 0, [], [("joule", 1), ("tesla", -1)], 6⟩,
  ⟨"nuclear_magneton", 50507837461, 10 ^ 37, 0, [], [("joule", 1), ("tesla", -1)], 6⟩,
  ⟨"proton_magnetic_moment", 17632584967, 125 * 10 ^ 34, 0, [], [("joule", 1), ("tesla", -1)], 6⟩,
  ⟨"deuteron_magnetic_moment", 2165367547, 5 * 10 ^ 35, 0, [], [("joule", 1), ("tesla", -1)], 6⟩,
  ⟨"triton_magnetic_moment", 7523047601, 5 * 10 ^ 35, 0, [], [("joule", 1), ("tesla", -1)], 6⟩,
  ⟨"proton_g_factor", 55856946893, 10 ^ 10, 0, [], [], 7⟩,
  ⟨"deuteron_g_factor", 4287191169, 5 * 10 ^ 9, 0, [], [], 7⟩,
  ⟨"triton_g_factor", 5957924931, 10 ^ 9, 0, [], [], 7⟩,
  ⟨"electron_magnetic_moment_anomaly", 7247826133, 625 * 10 ^ 10, 0, [], [], 8⟩,
  ⟨"muon_magnetic_moment_anomaly", 116592089, 10 ^ 11, 0, [], [], 6⟩,
  ⟨"proton_rms_charge_radius", 21, 25 * 10 ^ 15, 0, [], [("meter", 1)], 1⟩,
  ⟨"deuteron_rms_charge_radius", 212799, 10 ^ 20, 0, [], [("meter", 1)], 2⟩,
  ⟨"Stefan_Boltzmann_constant", 5670374419, 10 ^ 17, 0, [], [("watt", 1), ("meter", -2), ("kelvin", -4)], 5⟩,
  ⟨"Wien_wavelength_displacement_law_constant", 579554391, 2 * 10 ^ 11, 0, [], [("meter", 1), ("kelvin", 1)], 5⟩,
  ⟨"Wien_frequency_displacement_law_constant", 58789257570, 1, 0, [], [("hertz", 1), ("kelvin", -1)], 5⟩,
  ⟨"Fermi_coupling_constant", 11663787, 10 ^ 12, 0, [], [("GeV", -2)], 4⟩,
  ⟨"weak_mixing_angle", 2229, 10000, 0, [], [], 2⟩,
  ⟨"Angstrom_star", 20000299, 2 * 10 ^ 17, 0, [], [("meter", 1)], 6⟩,
  ⟨"Cu_x_unit", 100207697, 10 ^ 21, 0, [], [("meter", 1)], 6⟩,
  ⟨"Mo_x_unit", 3131561, 3125 * 10 ^ 16, 0, [], [("meter", 1)], 6⟩,
  ⟨"lattice_parameter_of_silicon", 5431020511, 10 ^ 19, 0, [], [("meter", 1)], 6⟩,
  ⟨"silicon_220_lattice_spacing", 480038929, 25 * 10 ^ 17, 0, [], [("meter", 1)], 6⟩,
  ⟨"molar_mass_constant", 1, 1000, 0, [], [("kilogram", 1), ("mole", -1)], 15⟩,
  ⟨"molar_mass_of_carbon_12", 3, 250, 0, [], [("kilogram", 1), ("mole", -1)], 15⟩,
  ⟨"conventional_value_of_Josephson_constant", 4835979 * 10 ^ 8, 1, 0, [], [("hertz", 1), ("volt", -1)], 15⟩,
  ⟨"conventional_value_of_von_Klitzing_constant", 25812807, 1000, 0, [], [("ohm", 1)], 15⟩,
  ⟨"shielded_proton_magnetic_moment", 4408033, 3125 * 10 ^ 29, 0, [], [("joule", 1), ("tesla", -1)], 6⟩,
  ⟨"electron_gyromagnetic_ratio", 176085963023, 1, 0, [], [("second", -1), ("tesla", -1)], 6⟩,
  ⟨"neutron_gyromagnetic_ratio", 183247171, 1, 0, [], [("second", -1), ("tesla", -1)], 6⟩,
  ⟨"shielded_helion_gyromagnetic_ratio", 2037894569, 10, 0, [], [("second", -1), ("tesla", -1)], 6⟩,
  ⟨"electron_muon_magnetic_moment_ratio", 2067669883, 10 ^ 7, 0, [], [], 7⟩,
  ⟨"electron_neutron_magnetic_moment_ratio", 1921841, 2000, 0, [], [], 6⟩,
  ⟨"electron_to_shielded_helion_magnetic_moment_ratio", 864058257, 10 ^ 6, 0, [], [], 7⟩,
  ⟨"neutron_electron_magnetic_moment_ratio", 52033441, 5 * 10 ^ 10, 0, [], [], 6⟩,
  ⟨"proton_magnetic_shielding_correction", 25689, 10 ^ 9, 0, [], [], 3⟩,
  ⟨"pi", 1, 1, 1, [], [], 15⟩,
  -- electromagnetism
  ⟨"magnetic_constant", 1, 2500000, 1, [], [("newton", 1), ("ampere", -2)], 10⟩,
  ⟨"electric_constant", 1, 1, 0, [("magnetic_constant", -1), ("natural_unit_of_velocity", -2)], [], 9⟩,
  ⟨"characteristic_impedance_of_vacuum", 1, 1, 0, [("magnetic_constant", 1), ("natural_unit_of_velocity", 1)], [], 9⟩,
  ⟨"elementary_charge_over_h", 1, 1, 0, [("elementary_charge", 1), ("Planck_constant", -1)], [], 7⟩,
  ⟨"Faraday_constant", 1, 1, 0, [("elementary_charge", 1), ("Avogadro_constant", 1)], [], 7⟩,
  ⟨"electron_volt", 1, 1, 0, [("elementary_charge", 1)], [("volt", 1)], 15⟩,
  ⟨"Josephson_constant", 2, 1, 0, [("elementary_charge", 1), ("Planck_constant", -1)], [], 7⟩,
  ⟨"von_Klitzing_constant", 1, 1, 0, [("Planck_constant", 1), ("elementary_charge", -2)], [], 7⟩,
  ⟨"conductance_quantum", 2, 1, 0, [("elementary_charge", 2), ("Planck_constant", -1)], [], 7⟩,
  ⟨"inverse_of_conductance_quantum", 1, 1, 0, [("conductance_quantum", -1)], [], 8⟩,
  ⟨"magnetic_flux_quantum", 1, 2, 0, [("Planck_constant", 1), ("elementary_charge", -1)], [], 7⟩,
  ⟨"fine_structure_constant", 1, 2, 0, [("elementary_charge", 2), ("Planck_constant", -1), ("natural_unit_of_velocity", -1), ("electric_constant", -1)], [], 7⟩,
  ⟨"inverse_fine_structure_constant", 1, 1, 0, [("fine_structure_constant", -1)], [], 8⟩,
  -- quantum mechanics
  ⟨"Planck_constant_over_2_pi", 1, 2, -1, [("Planck_constant", 1)], [], 8⟩,
  ⟨"molar_Planck_constant", 1, 1, 0, [("Avogadro_constant", 1), ("Planck_constant", 1)], [], 7⟩,
  ⟨"molar_Planck_constant_times_c", 1, 1, 0, [("Avogadro_constant", 1), ("Planck_constant", 1), ("natural_unit_of_velocity", 1)], [], 7⟩,
  ⟨"quantum_of_circulation", 1, 2, 0, [("Planck_constant", 1), ("electron_mass", -1)], [], 7⟩,
  ⟨"quantum_of_circulation_times_2", 1, 1, 0, [("Planck_constant", 1), ("electron_mass", -1)], [], 7⟩,
  ⟨"Rydberg_constant", 1, 2, 0, [("fine_structure_constant", 2), ("electron_mass", 1), ("natural_unit_of_velocity", 1), ("Planck_constant", -1)], [], 7⟩,
  ⟨"Rydberg_constant_times_c_in_Hz", 1, 1, 0, [("Rydberg_constant", 1), ("natural_unit_of_velocity", 1)], [], 9⟩,
  ⟨"Rydberg_constant_times_hc_in_J", 1, 1, 0, [("Rydberg_constant", 1), ("Planck_constant", 1), ("natural_unit_of_velocity", 1)], [], 7⟩,
  ⟨"Rydberg_constant_times_hc_in_eV", 1, 1, 0, [("Rydberg_constant", 1), ("Planck_constant", 1), ("natural_unit_of_velocity", 1)], [], 7⟩,
  ⟨"Bohr_radius", 1, 1, 0, [("Planck_constant_over_2_pi", 1), ("electron_mass", -1), ("natural_unit_of_velocity", -1), ("fine_structure_constant", -1)], [], 7⟩,
  ⟨"Hartree_energy", 2, 1, 0, [("Rydberg_constant", 1), ("Planck_constant", 1), ("natural_unit_of_velocity", 1)], [], 7⟩,
  ⟨"Hartree_energy_in_eV", 1, 1, 0, [("Hartree_energy", 1)], [], 7⟩,
  ⟨"classical_electron_radius", 1, 1, 0, [("fine_structure_constant", 2), ("Bohr_radius", 1)], [], 8⟩,
  ⟨"Thomson_cross_section", 8, 3, 1, [("classical_electron_radius", 2)], [], 7⟩,
  ⟨"first_radiation_constant", 2, 1, 1, [("Planck_constant", 1), ("natural_unit_of_velocity", 2)], [], 7⟩,
  ⟨"first_radiation_constant_for_spectral_radiance", 2, 1, 0, [("Planck_constant", 1), ("natural_unit_of_velocity", 2)], [], 7⟩,
  ⟨"second_radiation_constant", 1, 1, 0, [("Planck_constant", 1), ("natural_unit_of_velocity", 1), ("Boltzmann_constant", -1)], [], 6⟩,
  ⟨"Stefan_Boltzmann_constant", 2, 15, 5, [("Boltzmann_constant", 4), ("Planck_constant", -3), ("natural_unit_of_velocity", -2)], [], 4⟩,
  ⟨"Newtonian_constant_of_gravitation_over_h_bar_c", 1, 1, 0, [("Newtonian_constant_of_gravitation", 1), ("Planck_constant_over_2_pi", -1), ("natural_unit_of_velocity", -1)], [], 4⟩,
  ⟨"Planck_mass", 1, 1, 0, [("Planck_mass", -1), ("Planck_constant_over_2_pi", 1), ("natural_unit_of_velocity", 1), ("Newtonian_constant_of_gravitation", -1)], [], 4⟩,
  ⟨"Planck_length", 1, 1, 0, [("Planck_constant_over_2_pi", 1), ("Planck_mass", -1), ("natural_unit_of_velocity", -1)], [], 4⟩,
  ⟨"Planck_time", 1, 1, 0, [("Planck_length", 1), ("natural_unit_of_velocity", -1)], [], 5⟩,
  ⟨"Planck_temperature", 1, 1, 0, [("Planck_mass", 1), ("natural_unit_of_velocity", 2), ("Boltzmann_constant", -1)], [], 5⟩,
  ⟨"Planck_constant_in_eV_s", 1, 1, 0, [("Planck_constant", 1)], [], 7⟩,
  ⟨"Planck_constant_over_2_pi_in_eV_s", 1, 1, 0, [("Planck_constant_over_2_pi", 1)], [], 7⟩,
  ⟨"Planck_constant_over_2_pi_times_c_in_MeV_fm", 1, 1, 0, [("Planck_constant_over_2_pi", 1), ("natural_unit_of_velocity", 1)], [], 7⟩,
  ⟨"Planck_mass_energy_equivalent_in_GeV", 1, 1, 0, [("Planck_mass", 1), ("natural_unit_of_velocity", 2)], [], 4⟩,
  -- statistical mechanics
  ⟨"molar_gas_constant", 1, 1, 0, [("Boltzmann_constant", 1), ("Avogadro_constant", 1)], [], 6⟩,
  ⟨"Boltzmann_constant_in_eV_per_K", 1, 1, 0, [("Boltzmann_constant", 1)], [], 6⟩,
  ⟨"Boltzmann_constant_in_Hz_per_K", 1, 1, 0, [("Boltzmann_constant", 1), ("Planck_constant", -1)], [], 6⟩,
  ⟨"Boltzmann_constant_in_inverse_meters_per_kelvin", 1, 1, 0, [("Boltzmann_constant", 1), ("Planck_constant", -1), ("natural_unit_of_velocity", -1)], [], 6⟩,
  ⟨"molar_volume_of_ideal_gas_STP", 1821, 675500, 0, [("molar_gas_constant", 1)], [("kelvin", 1), ("pascal", -1)], 6⟩,
  ⟨"molar_volume_of_ideal_gas_ST_100kPa", 5463, 2 * 10 ^ 6, 0, [("molar_gas_constant", 1)], [("kelvin", 1), ("pascal", -1)], 6⟩,
  ⟨"Loschmidt_constant", 1, 1, 0, [("Avogadro_constant", 1), ("molar_volume_of_ideal_gas_STP", -1)], [], 6⟩,
  ⟨"molar_volume_of_silicon", 1, 8, 0, [("lattice_parameter_of_silicon", 3), ("Avogadro_constant", 1)], [], 7⟩,
  -- masses
  ⟨"electron_mass_energy_equivalent", 1, 1, 0, [("electron_mass", 1), ("natural_unit_of_velocity", 2)], [], 7⟩,
  ⟨"electron_mass_energy_equivalent_in_MeV", 1, 1, 0, [("electron_mass", 1), ("natural_unit_of_velocity", 2)], [], 7⟩,
  ⟨"electron_mass_in_u", 1, 1, 0, [("electron_mass", 1)], [], 7⟩,
  ⟨"electron_molar_mass", 1, 1, 0, [("electron_mass", 1), ("Avogadro_constant", 1)], [], 7⟩,
  ⟨"Compton_wavelength", 1, 1, 0, [("Planck_constant", 1), ("electron_mass", -1), ("natural_unit_of_velocity", -1)], [], 7⟩,
  ⟨"Compton_wavelength_over_2_pi", 1, 1, 0, [("Planck_constant_over_2_pi", 1), ("electron_mass", -1), ("natural_unit_of_velocity", -1)], [], 7⟩,
  ⟨"muon_mass_energy_equivalent", 1, 1, 0, [("muon_mass", 1), ("natural_unit_of_velocity", 2)], [], 7⟩,
  ⟨"muon_mass_energy_equivalent_in_MeV", 1, 1, 0, [("muon_mass", 1), ("natural_unit_of_velocity", 2)], [], 7⟩,
  ⟨"muon_mass_in_u", 1, 1, 0, [("muon_mass", 1)], [], 7⟩,
  ⟨"muon_molar_mass", 1, 1, 0, [("muon_mass", 1), ("Avogadro_constant", 1)], [], 7⟩,
  ⟨"muon_Compton_wavelength", 1, 1, 0, [("Planck_constant", 1), ("muon_mass", -1), ("natural_unit_of_velocity", -1)], [], 7⟩,
  ⟨"muon_Compton_wavelength_over_2_pi", 1, 1, 0, [("Planck_constant_over_2_pi", 1), ("muon_mass", -1), ("natural_unit_of_velocity", -1)], [], 7⟩,
  ⟨"tau_mass_energy_equivalent", 1, 1, 0, [("tau_mass", 1), ("natural_unit_of_velocity", 2)], [], 4⟩,
  ⟨"tau_mass_energy_equivalent_in_MeV", 1, 1, 0, [("tau_mass", 1), ("natural_unit_of_velocity", 2)], [], 4⟩,
  ⟨"tau_mass_in_u", 1, 1, 0, [("tau_mass", 1)], [], 4⟩,
  ⟨"tau_molar_mass", 1, 1, 0, [("tau_mass", 1), ("Avogadro_constant", 1)], [], 4⟩,
  ⟨"tau_Compton_wavelength", 1, 1, 0, [("Planck_constant", 1), ("tau_mass", -1), ("natural_unit_of_velocity", -1)], [], 4⟩,
  ⟨"tau_Compton_wavelength_over_2_pi", 1, 1, 0, [("Planck_constant_over_2_pi", 1), ("tau_mass", -1), ("natural_unit_of_velocity", -1)], [], 4⟩,
  ⟨"proton_mass_energy_equivalent", 1, 1, 0, [("proton_mass", 1), ("natural_unit_of_velocity", 2)], [], 7⟩,
  ⟨"proton_mass_energy_equivalent_in_MeV", 1, 1, 0, [("proton_mass", 1), ("natural_unit_of_velocity", 2)], [], 7⟩,
  ⟨"proton_mass_in_u", 1, 1, 0, [("proton_mass", 1)], [], 7⟩,
  ⟨"proton_molar_mass", 1, 1, 0, [("proton_mass", 1), ("Avogadro_constant", 1)], [], 7⟩,
  ⟨"proton_Compton_wavelength", 1, 1, 0, [("Planck_constant", 1), ("proton_mass", -1), ("natural_unit_of_velocity", -1)], [], 7⟩,
  ⟨"proton_Compton_wavelength_over_2_pi", 1, 1, 0, [("Planck_constant_over_2_pi", 1), ("proton_mass", -1), ("natural_unit_of_velocity", -1)], [], 7⟩,
  ⟨"neutron_mass_energy_equivalent", 1, 1, 0, [("neutron_mass", 1), ("natural_unit_of_velocity", 2)], [], 7⟩,
  ⟨"neutron_mass_energy_equivalent_in_MeV", 1, 1, 0, [("neutron_mass", 1), ("natural_unit_of_velocity", 2)], [], 7⟩,
  ⟨"neutron_mass_in_u", 1, 1, 0, [("neutron_mass", 1)], [], 7⟩,
  ⟨"neutron_molar_mass", 1, 1, 0, [("neutron_mass", 1), ("Avogadro_constant", 1)], [], 7⟩,
  ⟨"neutron_Compton_wavelength", 1, 1, 0, [("Planck_constant", 1), ("neutron_mass", -1), ("natural_unit_of_velocity", -1)], [], 7⟩,
  ⟨"neutron_Compton_wavelength_over_2_pi", 1, 1, 0, [("Planck_constant_over_2_pi", 1), ("neutron_mass", -1), ("natural_unit_of_velocity", -1)], [], 7⟩,
  ⟨"deuteron_mass_energy_equivalent", 1, 1, 0, [("deuteron_mass", 1), ("natural_unit_of_velocity", 2)], [], 7⟩,
  ⟨"deuteron_mass_energy_equivalent_in_MeV", 1, 1, 0, [("deuteron_mass", 1), ("natural_unit_of_velocity", 2)], [], 7⟩,
  ⟨"deuteron_mass_in_u", 1, 1, 0, [("deuteron_mass", 1)], [], 7⟩,
  ⟨"deuteron_molar_mass", 1, 1, 0, [("deuteron_mass", 1), ("Avogadro_constant", 1)], [], 7⟩,
  ⟨"helion_mass_energy_equivalent", 1, 1, 0, [("helion_mass", 1), ("natural_unit_of_velocity", 2)], [], 7⟩,
  ⟨"helion_mass_energy_equivalent_in_MeV", 1, 1, 0, [("helion_mass", 1), ("natural_unit_of_velocity", 2)], [], 7⟩,
  ⟨"helion_mass_in_u", 1, 1, 0, [("helion_mass", 1)], [], 7⟩,
  ⟨"helion_molar_mass", 1, 1, 0, [("helion_mass", 1), ("Avogadro_constant", 1)], [], 7⟩,
  ⟨"triton_mass_energy_equivalent", 1, 1, 0, [("triton_mass", 1), ("natural_unit_of_velocity", 2)], [], 7⟩,
  ⟨"triton_mass_energy_equivalent_in_MeV", 1, 1, 0, [("triton_mass", 1), ("natural_unit_of_velocity", 2)], [], 7⟩,
  ⟨"triton_mass_in_u", 1, 1, 0, [("triton_mass", 1)], [], 7⟩,
  ⟨"triton_molar_mass", 1, 1, 0, [("triton_mass", 1), ("Avogadro_constant", 1)], [], 7⟩,
  ⟨"alpha_particle_mass_energy_equivalent", 1, 1, 0, [("alpha_particle_mass", 1), ("natural_unit_of_velocity", 2)], [], 7⟩,
  ⟨"alpha_particle_mass_energy_equivalent_in_MeV", 1, 1, 0, [("alpha_particle_mass", 1), ("natural_unit_of_velocity", 2)], [], 7⟩,
  ⟨"alpha_particle_mass_in_u", 1, 1, 0, [("alpha_particle_mass", 1)], [], 7⟩,
  ⟨"alpha_particle_molar_mass", 1, 1, 0, [("alpha_particle_mass", 1), ("Avogadro_constant", 1)], [], 7⟩,
  ⟨"alpha_particle_electron_mass_ratio", 1, 1, 0, [("alpha_particle_mass", 1), ("electron_mass", -1)], [], 6⟩,
  ⟨"alpha_particle_proton_mass_ratio", 1, 1, 0, [("alpha_particle_mass", 1), ("proton_mass", -1)], [], 6⟩,
  ⟨"deuteron_electron_mass_ratio", 1, 1, 0, [("deuteron_mass", 1), ("electron_mass", -1)], [], 6⟩,
  ⟨"deuteron_proton_mass_ratio", 1, 1, 0, [("deuteron_mass", 1), ("proton_mass", -1)], [], 6⟩,
  ⟨"electron_deuteron_mass_ratio", 1, 1, 0, [("electron_mass", 1), ("deuteron_mass", -1)], [], 6⟩,
  ⟨"electron_muon_mass_ratio", 1, 1, 0, [("electron_mass", 1), ("muon_mass", -1)], [], 6⟩,
  ⟨"electron_neutron_mass_ratio", 1, 1, 0, [("electron_mass", 1), ("neutron_mass", -1)], [], 6⟩,
  ⟨"electron_proton_mass_ratio", 1, 1, 0, [("electron_mass", 1), ("proton_mass", -1)], [], 6⟩,
  ⟨"electron_tau_mass_ratio", 1, 1, 0, [("electron_mass", 1), ("tau_mass", -1)], [], 3⟩,
  ⟨"electron_to_alpha_particle_mass_ratio", 1, 1, 0, [("electron_mass", 1), ("alpha_particle_mass", -1)], [], 6⟩,
  ⟨"helion_electron_mass_ratio", 1, 1, 0, [("helion_mass", 1), ("electron_mass", -1)], [], 6⟩,
  ⟨"helion_proton_mass_ratio", 1, 1, 0, [("helion_mass", 1), ("proton_mass", -1)], [], 6⟩,
  ⟨"muon_electron_mass_ratio", 1, 1, 0, [("muon_mass", 1), ("electron_mass", -1)], [], 6⟩,
  ⟨"muon_neutron_mass_ratio", 1, 1, 0, [("muon_mass", 1), ("neutron_mass", -1)], [], 6⟩,
  ⟨"muon_proton_mass_ratio", 1, 1, 0, [("muon_mass", 1), ("proton_mass", -1)], [], 6⟩,
  ⟨"muon_tau_mass_ratio", 1, 1, 0, [("muon_mass", 1), ("tau_mass", -1)], [], 3⟩,
  ⟨"neutron_electron_mass_ratio", 1, 1, 0, [("neutron_mass", 1), ("electron_mass", -1)], [], 6⟩,
  ⟨"neutron_muon_mass_ratio", 1, 1, 0, [("neutron_mass", 1), ("muon_mass", -1)], [], 6⟩,
  ⟨"neutron_proton_mass_ratio", 1, 1, 0, [("neutron_mass", 1), ("proton_mass", -1)], [], 6⟩,
  ⟨"neutron_tau_mass_ratio", 1, 1, 0, [("neutron_mass", 1), ("tau_mass", -1)], [], 3⟩,
  ⟨"proton_electron_mass_ratio", 1, 1, 0, [("proton_mass", 1), ("electron_mass", -1)], [], 6⟩,
  ⟨"proton_muon_mass_ratio", 1, 1, 0, [("proton_mass", 1), ("muon_mass", -1)], [], 6⟩,
  ⟨"proton_neutron_mass_ratio", 1, 1, 0, [("proton_mass", 1), ("neutron_mass", -1)], [], 6⟩,
  ⟨"proton_tau_mass_ratio", 1, 1, 0, [("proton_mass", 1), ("tau_mass", -1)], [], 3⟩,
  ⟨"tau_electron_mass_ratio", 1, 1, 0, [("tau_mass", 1), ("electron_mass", -1)], [], 3⟩,
  ⟨"tau_muon_mass_ratio", 1, 1, 0, [("tau_mass", 1), ("muon_mass", -1)], [], 3⟩,
  ⟨"tau_neutron_mass_ratio", 1, 1, 0, [("tau_mass", 1), ("neutron_mass", -1)], [], 3⟩,
  ⟨"tau_proton_mass_ratio", 1, 1, 0, [("tau_mass", 1), ("proton_mass", -1)], [], 3⟩,
  ⟨"triton_electron_mass_ratio", 1, 1, 0, [("triton_mass", 1), ("electron_mass", -1)], [], 6⟩,
  ⟨"triton_proton_mass_ratio", 1, 1, 0, [("triton_mass", 1), ("proton_mass", -1)], [], 6⟩,
  ⟨"unified_atomic_mass_unit", 1, 1, 0, [("atomic_mass_constant", 1)], [], 15⟩,
  ⟨"atomic_mass_constant", 1, 1, 0, [("molar_mass_constant", 1), ("Avogadro_constant", -1)], [], 7⟩,
  ⟨"atomic_mass_constant_energy_equivalent", 1, 1, 0, [("atomic_mass_constant", 1), ("natural_unit_of_velocity", 2)], [], 7⟩,
  ⟨"atomic_mass_constant_energy_equivalent_in_MeV", 1, 1, 0, [("atomic_mass_constant", 1), ("natural_unit_of_velocity", 2)], [], 7⟩,
  ⟨"silicon_220_lattice_spacing", 1, 8, 0, [("lattice_parameter_of_silicon", 2), ("silicon_220_lattice_spacing", -1)], [], 7⟩,
  -- magnetic moments
  ⟨"Bohr_magneton", 1, 2, 0, [("elementary_charge", 1), ("Planck_constant_over_2_pi", 1), ("electron_mass", -1)], [], 7⟩,
  ⟨"nuclear_magneton", 1, 2, 0, [("elementary_charge", 1), ("Planck_constant_over_2_pi", 1), ("proton_mass", -1)], [], 7⟩,
  ⟨"Bohr_magneton_in_Hz_per_T", 1, 1, 0, [("Bohr_magneton", 1), ("Planck_constant", -1)], [], 7⟩,
  ⟨"Bohr_magneton_in_inverse_meters_per_tesla", 1, 1, 0, [("Bohr_magneton", 1), ("Planck_constant", -1), ("natural_unit_of_velocity", -1)], [], 7⟩,
  ⟨"Bohr_magneton_in_K_per_T", 1, 1, 0, [("Bohr_magneton", 1), ("Boltzmann_constant", -1)], [], 6⟩,
  ⟨"nuclear_magneton_in_MHz_per_T", 1, 1, 0, [("nuclear_magneton", 1), ("Planck_constant", -1)], [], 7⟩,
  ⟨"nuclear_magneton_in_inverse_meters_per_tesla", 1, 1, 0, [("nuclear_magneton", 1), ("Planck_constant", -1), ("natural_unit_of_velocity", -1)], [], 7⟩,
  ⟨"nuclear_magneton_in_K_per_T", 1, 1, 0, [("nuclear_magneton", 1), ("Boltzmann_constant", -1)], [], 6⟩,
  ⟨"nuclear_magneton_in_eV_per_T", 1, 1, 0, [("nuclear_magneton", 1)], [], 7⟩,
  ⟨"proton_charge_to_mass_quotient", 1, 1, 0, [("elementary_charge", 1), ("proton_mass", -1)], [], 7⟩,
  ⟨"proton_magnetic_moment_to_Bohr_magneton_ratio", 1, 1, 0, [("proton_magnetic_moment", 1), ("Bohr_magneton", -1)], [], 7⟩,
  ⟨"proton_magnetic_moment_to_nuclear_magneton_ratio", 1, 1, 0, [("proton_magnetic_moment", 1), ("nuclear_magneton", -1)], [], 7⟩,
  ⟨"deuteron_magnetic_moment_to_Bohr_magneton_ratio", 1, 1, 0, [("deuteron_magnetic_moment", 1), ("Bohr_magneton", -1)], [], 7⟩,
  ⟨"deuteron_magnetic_moment_to_nuclear_magneton_ratio", 1, 1, 0, [("deuteron_magnetic_moment", 1), ("nuclear_magneton", -1)], [], 7⟩,
  ⟨"triton_magnetic_moment_to_Bohr_magneton_ratio", 1, 1, 0, [("triton_magnetic_moment", 1), ("Bohr_magneton", -1)], [], 7⟩,
  ⟨"triton_magnetic_moment_to_nuclear_magneton_ratio", 1, 1, 0, [("triton_magnetic_moment", 1), ("nuclear_magneton", -1)], [], 7⟩,
  ⟨"shielded_proton_magnetic_moment_to_Bohr_magneton_ratio", 1, 1, 0, [("shielded_proton_magnetic_moment", 1), ("Bohr_magneton", -1)], [], 7⟩,
  ⟨"shielded_proton_magnetic_moment_to_nuclear_magneton_ratio", 1, 1, 0, [("shielded_proton_magnetic_moment", 1), ("nuclear_magneton", -1)], [], 7⟩,
  ⟨"proton_g_factor", 2, 1, 0, [("proton_magnetic_moment_to_nuclear_magneton_ratio", 1)], [], 8⟩,
  ⟨"triton_g_factor", 2, 1, 0, [("triton_magnetic_moment_to_nuclear_magneton_ratio", 1)], [], 8⟩,
  ⟨"deuteron_g_factor", 1, 1, 0, [("deuteron_magnetic_moment_to_nuclear_magneton_ratio", 1)], [], 8⟩,
  ⟨"deuteron_proton_magnetic_moment_ratio", 1, 1, 0, [("deuteron_magnetic_moment", 1), ("proton_magnetic_moment", -1)], [], 7⟩,
  ⟨"triton_proton_magnetic_moment_ratio", 1, 1, 0, [("triton_magnetic_moment", 1), ("proton_magnetic_moment", -1)], [], 7⟩,
  ⟨"proton_gyromagnetic_ratio", 2, 1, 0, [("proton_magnetic_moment", 1), ("Planck_constant_over_2_pi", -1)], [], 7⟩,
  ⟨"shielded_proton_gyromagnetic_ratio", 2, 1, 0, [("shielded_proton_magnetic_moment", 1), ("Planck_constant_over_2_pi", -1)], [], 7⟩,
  ⟨"proton_gyromagnetic_ratio_over_2_pi", 1, 2, -1, [("proton_gyromagnetic_ratio", 1)], [], 8⟩,
  ⟨"shielded_proton_gyromagnetic_ratio_over_2_pi", 1, 2, -1, [("shielded_proton_gyromagnetic_ratio", 1)], [], 8⟩,
  ⟨"neutron_gyromagnetic_ratio_over_2_pi", 1, 2, -1, [("neutron_gyromagnetic_ratio", 1)], [], 8⟩,
  ⟨"electron_gyromagnetic_ratio_over_2_pi", 1, 2, -1, [("electron_gyromagnetic_ratio", 1)], [], 8⟩,
  ⟨"shielded_helion_gyromagnetic_ratio_over_2_pi", 1, 2, -1, [("shielded_helion_gyromagnetic_ratio", 1)], [], 8⟩,
  -- atomic and natural units
  ⟨"atomic_unit_of_1st_hyperpolarizability", 1, 1, 0, [("elementary_charge", 3), ("Bohr_radius", 3), ("Hartree_energy", -2)], [], 7⟩,
  ⟨"atomic_unit_of_2nd_hyperpolarizability", 1, 1, 0, [("elementary_charge", 4), ("Bohr_radius", 4), ("Hartree_energy", -3)], [], 7⟩,
  ⟨"atomic_unit_of_action", 1, 1, 0, [("Planck_constant_over_2_pi", 1)], [], 7⟩,
  ⟨"atomic_unit_of_charge", 1, 1, 0, [("elementary_charge", 1)], [], 7⟩,
  ⟨"atomic_unit_of_charge_density", 1, 1, 0, [("elementary_charge", 1), ("Bohr_radius", -3)], [], 7⟩,
  ⟨"atomic_unit_of_current", 1, 1, 0, [("elementary_charge", 1), ("Hartree_energy", 1), ("Planck_constant_over_2_pi", -1)], [], 7⟩,
  ⟨"atomic_unit_of_electric_dipole_moment", 1, 1, 0, [("elementary_charge", 1), ("Bohr_radius", 1)], [], 7⟩,
  ⟨"atomic_unit_of_electric_field", 1, 1, 0, [("Hartree_energy", 1), ("elementary_charge", -1), ("Bohr_radius", -1)], [], 7⟩,
  ⟨"atomic_unit_of_electric_field_gradient", 1, 1, 0, [("Hartree_energy", 1), ("elementary_charge", -1), ("Bohr_radius", -2)], [], 7⟩,
  ⟨"atomic_unit_of_electric_polarizability", 1, 1, 0, [("elementary_charge", 2), ("Bohr_radius", 2), ("Hartree_energy", -1)], [], 7⟩,
  ⟨"atomic_unit_of_electric_potential", 1, 1, 0, [("Hartree_energy", 1), ("elementary_charge", -1)], [], 7⟩,
  ⟨"atomic_unit_of_electric_quadrupole_moment", 1, 1, 0, [("elementary_charge", 1), ("Bohr_radius", 2)], [], 7⟩,
  ⟨"atomic_unit_of_energy", 1, 1, 0, [("Hartree_energy", 1)], [], 7⟩,
  ⟨"atomic_unit_of_force", 1, 1, 0, [("Hartree_energy", 1), ("Bohr_radius", -1)], [], 7⟩,
  ⟨"atomic_unit_of_length", 1, 1, 0, [("Bohr_radius", 1)], [], 7⟩,
  ⟨"atomic_unit_of_magnetic_dipole_moment", 1, 1, 0, [("Planck_constant_over_2_pi", 1), ("elementary_charge", 1), ("electron_mass", -1)], [], 7⟩,
  ⟨"atomic_unit_of_magnetic_flux_density", 1, 1, 0, [("Planck_constant_over_2_pi", 1), ("elementary_charge", -1), ("Bohr_radius", -2)], [], 7⟩,
  ⟨"atomic_unit_of_magnetizability", 1, 1, 0, [("elementary_charge", 2), ("Bohr_radius", 2), ("electron_mass", -1)], [], 7⟩,
  ⟨"atomic_unit_of_mass", 1, 1, 0, [("electron_mass", 1)], [], 7⟩,
  ⟨"atomic_unit_of_momentum", 1, 1, 0, [("Planck_constant_over_2_pi", 1), ("Bohr_radius", -1)], [], 7⟩,
  ⟨"atomic_unit_of_permittivity", 1, 1, 0, [("elementary_charge", 2), ("Bohr_radius", -1), ("Hartree_energy", -1)], [], 7⟩,
  ⟨"atomic_unit_of_time", 1, 1, 0, [("Planck_constant_over_2_pi", 1), ("Hartree_energy", -1)], [], 7⟩,
  ⟨"atomic_unit_of_velocity", 1, 1, 0, [("Bohr_radius", 1), ("Hartree_energy", 1), ("Planck_constant_over_2_pi", -1)], [], 7⟩,
  ⟨"natural_unit_of_action", 1, 1, 0, [("Planck_constant_over_2_pi", 1)], [], 7⟩,
  ⟨"natural_unit_of_energy", 1, 1, 0, [("electron_mass", 1), ("natural_unit_of_velocity", 2)], [], 7⟩,
  ⟨"natural_unit_of_length", 1, 1, 0, [("Planck_constant_over_2_pi", 1), ("electron_mass", -1), ("natural_unit_of_velocity", -1)], [], 7⟩,
  ⟨"natural_unit_of_mass", 1, 1, 0, [("electron_mass", 1)], [], 7⟩,
  ⟨"natural_unit_of_momentum", 1, 1, 0, [("electron_mass", 1), ("natural_unit_of_velocity", 1)], [], 7⟩,
  ⟨"natural_unit_of_time", 1, 1, 0, [("Planck_constant_over_2_pi", 1), ("electron_mass", -1), ("natural_unit_of_velocity", -2)], [], 7⟩,
  ⟨"natural_unit_of_action_in_eV_s", 1, 1, 0, [("Planck_constant_over_2_pi", 1)], [], 7⟩,
  ⟨"natural_unit_of_energy_in_MeV", 1, 1, 0, [("electron_mass", 1), ("natural_unit_of_velocity", 2)], [], 7⟩,
  ⟨"natural_unit_of_momentum_in_MeV_per_c", 1, 1, 0, [("electron_mass", 1), ("natural_unit_of_velocity", 1)], [], 7⟩,
  -- energy equivalents
  ⟨"joule_electron_volt_relationship", 1, 1, 0, [], [("joule", 1)], 7⟩,
  ⟨"joule_hartree_relationship", 1, 1, 0, [], [("joule", 1)], 7⟩,
  ⟨"joule_kilogram_relationship", 1, 1, 0, [("natural_unit_of_velocity", -2)], [("joule", 1)], 7⟩,
  ⟨"joule_atomic_mass_unit_relationship", 1, 1, 0, [("natural_unit_of_velocity", -2)], [("joule", 1)], 7⟩,
  ⟨"joule_hertz_relationship", 1, 1, 0, [("Planck_constant", -1)], [("joule", 1)], 7⟩,
  ⟨"joule_inverse_meter_relationship", 1, 1, 0, [("Planck_constant", -1), ("natural_unit_of_velocity", -1)], [("joule", 1)], 7⟩,
  ⟨"joule_kelvin_relationship", 1, 1, 0, [("Boltzmann_constant", -1)], [("joule", 1)], 6⟩,
  ⟨"electron_volt_joule_relationship", 1, 1, 0, [("elementary_charge", 1)], [("volt", 1)], 7⟩,
  ⟨"electron_volt_hartree_relationship", 1, 1, 0, [("elementary_charge", 1)], [("volt", 1)], 7⟩,
  ⟨"electron_volt_kilogram_relationship", 1, 1, 0, [("elementary_charge", 1), ("natural_unit_of_velocity", -2)], [("volt", 1)], 7⟩,
  ⟨"electron_volt_atomic_mass_unit_relationship", 1, 1, 0, [("elementary_charge", 1), ("natural_unit_of_velocity", -2)], [("volt", 1)], 7⟩,
  ⟨"electron_volt_hertz_relationship", 1, 1, 0, [("elementary_charge", 1), ("Planck_constant", -1)], [("volt", 1)], 7⟩,
  ⟨"electron_volt_inverse_meter_relationship", 1, 1, 0, [("elementary_charge", 1), ("Planck_constant", -1), ("natural_unit_of_velocity", -1)], [("volt", 1)], 7⟩,
  ⟨"electron_volt_kelvin_relationship", 1, 1, 0, [("elementary_charge", 1), ("Boltzmann_constant", -1)], [("volt", 1)], 6⟩,
  ⟨"hartree_joule_relationship", 1, 1, 0, [("Hartree_energy", 1)], [], 7⟩,
  ⟨"hartree_electron_volt_relationship", 1, 1, 0, [("Hartree_energy", 1)], [], 7⟩,
  ⟨"hartree_kilogram_relationship", 1, 1, 0, [("Hartree_energy", 1), ("natural_unit_of_velocity", -2)], [], 7⟩,
  ⟨"hartree_atomic_mass_unit_relationship", 1, 1, 0, [("Hartree_energy", 1), ("natural_unit_of_velocity", -2)], [], 7⟩,
  ⟨"hartree_hertz_relationship", 1, 1, 0, [("Hartree_energy", 1), ("Planck_constant", -1)], [], 7⟩,
  ⟨"hartree_inverse_meter_relationship", 1, 1, 0, [("Hartree_energy", 1), ("Planck_constant", -1), ("natural_unit_of_velocity", -1)], [], 7⟩,
  ⟨"hartree_kelvin_relationship", 1, 1, 0, [("Hartree_energy", 1), ("Boltzmann_constant", -1)], [], 6⟩,
  ⟨"kilogram_joule_relationship", 1, 1, 0, [("natural_unit_of_velocity", 2)], [("kilogram", 1)], 7⟩,
  ⟨"kilogram_electron_volt_relationship", 1, 1, 0, [("natural_unit_of_velocity", 2)], [("kilogram", 1)], 7⟩,
  ⟨"kilogram_hartree_relationship", 1, 1, 0, [("natural_unit_of_velocity", 2)], [("kilogram", 1)], 7⟩,
  ⟨"kilogram_atomic_mass_unit_relationship", 1, 1, 0, [], [("kilogram", 1)], 7⟩,
  ⟨"kilogram_hertz_relationship", 1, 1, 0, [("natural_unit_of_velocity", 2), ("Planck_constant", -1)], [("kilogram", 1)], 7⟩,
  ⟨"kilogram_inverse_meter_relationship", 1, 1, 0, [("natural_unit_of_velocity", 1), ("Planck_constant", -1)], [("kilogram", 1)], 7⟩,
  ⟨"kilogram_kelvin_relationship", 1, 1, 0, [("natural_unit_of_velocity", 2), ("Boltzmann_constant", -1)], [("kilogram", 1)], 6⟩,
  ⟨"atomic_mass_unit_joule_relationship", 1, 1, 0, [("atomic_mass_constant", 1), ("natural_unit_of_velocity", 2)], [], 7⟩,
  ⟨"atomic_mass_unit_electron_volt_relationship", 1, 1, 0, [("atomic_mass_constant", 1), ("natural_unit_of_velocity", 2)], [], 7⟩,
  ⟨"atomic_mass_unit_hartree_relationship", 1, 1, 0, [("atomic_mass_constant", 1), ("natural_unit_of_velocity", 2)], [], 7⟩,
  ⟨"atomic_mass_unit_kilogram_relationship", 1, 1, 0, [("atomic_mass_constant", 1)], [], 7⟩,
  ⟨"atomic_mass_unit_hertz_relationship", 1, 1, 0, [("atomic_mass_constant", 1), ("natural_unit_of_velocity", 2), ("Planck_constant", -1)], [], 7⟩,
  ⟨"atomic_mass_unit_inverse_meter_relationship", 1, 1, 0, [("atomic_mass_constant", 1), ("natural_unit_of_velocity", 1), ("Planck_constant", -1)], [], 7⟩,
  ⟨"atomic_mass_unit_kelvin_relationship", 1, 1, 0, [("atomic_mass_constant", 1), ("natural_unit_of_velocity", 2), ("Boltzmann_constant", -1)], [], 6⟩,
  ⟨"hertz_joule_relationship", 1, 1, 0, [("Planck_constant", 1)], [("hertz", 1)], 7⟩,
  ⟨"hertz_electron_volt_relationship", 1, 1, 0, [("Planck_constant", 1)], [("hertz", 1)], 7⟩,
  ⟨"hertz_hartree_relationship", 1, 1, 0, [("Planck_constant", 1)], [("hertz", 1)], 7⟩,
  ⟨"hertz_kilogram_relationship", 1, 1, 0, [("Planck_constant", 1), ("natural_unit_of_velocity", -2)], [("hertz", 1)], 7⟩,
  ⟨"hertz_atomic_mass_unit_relationship", 1, 1, 0, [("Planck_constant", 1), ("natural_unit_of_velocity", -2)], [("hertz", 1)], 7⟩,
  ⟨"hertz_inverse_meter_relationship", 1, 1, 0, [("natural_unit_of_velocity", -1)], [("hertz", 1)], 7⟩,
  ⟨"hertz_kelvin_relationship", 1, 1, 0, [("Planck_constant", 1), ("Boltzmann_constant", -1)], [("hertz", 1)], 6⟩,
  ⟨"inverse_meter_joule_relationship", 1, 1, 0, [("Planck_constant", 1), ("natural_unit_of_velocity", 1)], [("meter", -1)], 7⟩,
  ⟨"inverse_meter_electron_volt_relationship", 1, 1, 0, [("Planck_constant", 1), ("natural_unit_of_velocity", 1)], [("meter", -1)], 7⟩,
  ⟨"inverse_meter_hartree_relationship", 1, 1, 0, [("Planck_constant", 1), ("natural_unit_of_velocity", 1)], [("meter", -1)], 7⟩,
  ⟨"inverse_meter_kilogram_relationship", 1, 1, 0, [("Planck_constant", 1), ("natural_unit_of_velocity", -1)], [("meter", -1)], 7⟩,
  ⟨"inverse_meter_atomic_mass_unit_relationship", 1, 1, 0, [("Planck_constant", 1), ("natural_unit_of_velocity", -1)], [("meter", -1)], 7⟩,
  ⟨"inverse_meter_hertz_relationship", 1, 1, 0, [("natural_unit_of_velocity", 1)], [("meter", -1)], 7⟩,
  ⟨"inverse_meter_kelvin_relationship", 1, 1, 0, [("Planck_constant", 1), ("natural_unit_of_velocity", 1), ("Boltzmann_constant", -1)], [("meter", -1)], 6⟩,
  ⟨"kelvin_joule_relationship", 1, 1, 0, [("Boltzmann_constant", 1)], [("kelvin", 1)], 6⟩,
  ⟨"kelvin_electron_volt_relationship", 1, 1, 0, [("Boltzmann_constant", 1)], [("kelvin", 1)], 6⟩,
  ⟨"kelvin_hartree_relationship", 1, 1, 0, [("Boltzmann_constant", 1)], [("kelvin", 1)], 6⟩,
  ⟨"kelvin_kilogram_relationship", 1, 1, 0, [("Boltzmann_constant", 1), ("natural_unit_of_velocity", -2)], [("kelvin", 1)], 6⟩,
  ⟨"kelvin_atomic_mass_unit_relationship", 1, 1, 0, [("Boltzmann_constant", 1), ("natural_unit_of_velocity", -2)], [("kelvin", 1)], 6⟩,
  ⟨"kelvin_hertz_relationship", 1, 1, 0, [("Boltzmann_constant", 1), ("Planck_constant", -1)], [("kelvin", 1)], 6⟩,
  ⟨"kelvin_inverse_meter_relationship", 1, 1, 0, [("Boltzmann_constant", 1), ("Planck_constant", -1), ("natural_unit_of_velocity", -1)], [("kelvin", 1)], 6⟩]

end PQ
