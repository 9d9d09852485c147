import Verif.CoordSys.CfModel

/-!
# Vectors

Model of `enhanceVectorProperties` (`src/coordSys/CoordinateSystem.cc:509-529`) for both conventions: variables that are the components of a
vector are connected.  What a variable has besides name and shape is its vector information.
-/

namespace Fimex.Vectors

open Cdm Cf

/-- include/fimex/CDMVariable.h:45 `SpatialVectorDirection`. -/
inductive Dir where
  | none
  | x
  | y
  | lon
  | lat
deriving DecidableEq, Repr

/-- include/fimex/CDMVariable.h:111-112; a variable without vector has an empty counterpart. -/
structure Vec where
  counterpart : String := ""
  direction : Dir := .none
deriving DecidableEq, Repr

variable {V CS Pr : Type}

/-- include/fimex/CDMVariable.h:70 `isSpatialVector`. -/
def isVector (v : Var Vec) : Bool := v.payload.counterpart ≠ ""

/-- `cdm.getVariable(name).setAsSpatialVector(counterpart, direction)`, src/CDMVariable.cc:65-69. -/
def setVec (c : CDM Vec V CS) (n p : String) (d : Dir) : CDM Vec V CS :=
  { c with vars := c.vars.map fun v => if v.name = n then { v with payload := ⟨p, d⟩ } else v }

/-- `findVariables("standard_name", regex_escape(name) + ".*")`; the names of the table have no special characters and no line breaks. -/
def named (L : Lib V Pr) (c : CDM Vec V CS) (sn : String) : List String :=
  findVariables c [("standard_name", fun v => sn.toList.isPrefixOf (L.text v).toList && dotStar (L.text v))] []

/-- src/coordSys/CF1_xCoordSysBuilder.cc:561-576, for one variable: the first partner of the same shape that is no vector yet. -/
def pairStep (yVars : List String) (dx dy : Dir) (c : CDM Vec V CS) (x : String) : CDM Vec V CS :=
  match getVariable c x with
  | .ok xv =>
    if isVector xv then c
    else
      match yVars.find? fun y =>
        match getVariable c y with
        | .ok yv => !isVector yv && xv.shape == yv.shape
        | _ => false with
      | some y => setVec (setVec c x y dx) y x dy
      | none => c
  | _ => c

/-- src/coordSys/CF1_xCoordSysBuilder.cc:555-578 `enhanceVectors`. -/
def enhanceVectors (L : Lib V Pr) (c : CDM Vec V CS) (t : String × String × Dir × Dir) : CDM Vec V CS :=
  (named L c t.1).foldl (pairStep (named L c t.2.1) t.2.2.1 t.2.2.2) c

/-- src/coordSys/CF1_xCoordSysBuilder.cc:584-661: the calls of `enhanceVectors`, directions by src/CDMVariable.cc:32-44. -/
def vectorTable : List (String × String × Dir × Dir) :=
  [("x_wind", "y_wind", .x, .y),
   ("grid_eastward_wind", "grid_northward_wind", .x, .y),
   ("sea_water_x_velocity", "sea_water_y_velocity", .x, .y),
   ("x_sea_water_velocity", "y_sea_water_velocity", .x, .y),
   ("barotropic_sea_water_x_velocity", "barotropic_sea_water_y_velocity", .x, .y),
   ("bolus_sea_water_x_velocity", "bolus_sea_water_y_velocity", .x, .y),
   ("surface_geostrophic_sea_water_x_velocity", "surface_geostrophic_sea_water_y_velocity", .x, .y),
   ("barotropic_sea_water_x_velocity", "barotropic_sea_water_y_velocity", .x, .y),
   ("sea_ice_x_velocity", "sea_ice_y_velocity", .x, .y),
   ("sea_ice_x_transport", "sea_ice_y_transport", .x, .y),
   ("sea_ice_x_displacement", "sea_ice_y_displacement", .x, .y),
   ("sea_surface_wave_stokes_drift_x_velocity", "sea_surface_wave_stokes_drift_y_velocity", .x, .y),
   ("land_ice_x_velocity", "land_ice_y_velocity", .x, .y),
   ("land_ice_basal_x_velocity", "land_ice_basal_y_velocity", .x, .y),
   ("land_ice_vertical_mean_x_velocity", "land_ice_vertical_mean_y_velocity", .x, .y),
   ("ocean_heat_x_transport", "ocean_heat_y_transport", .x, .y),
   ("ocean_salt_x_transport", "ocean_salt_y_transport", .x, .y),
   ("ocean_volume_x_transport", "ocean_volume_y_transport", .x, .y),
   ("atmosphere_eastward_stress_due_to_gravity_wave_drag", "atmosphere_northward_stress_due_to_gravity_wave_drag", .lon, .lat),
   ("baroclinic_eastward_sea_water_velocity", "baroclinic_northward_sea_water_velocity", .lon, .lat),
   ("barotropic_eastward_sea_water_velocity", "barotropic_northward_sea_water_velocity", .lon, .lat),
   ("bolus_eastward_sea_water_velocity", "bolus_northward_sea_water_velocity", .lon, .lat),
   ("downward_eastward_momentum_flux_in_air", "downward_northward_momentum_flux_in_air", .lon, .lat),
   ("downward_eastward_momentum_flux_in_air_due_to_diffusion", "downward_northward_momentum_flux_in_air_due_to_diffusion", .lon, .lat),
   ("downward_eastward_stress_at_sea_ice_base", "downward_northward_stress_at_sea_ice_base", .lon, .lat),
   ("eastward_atmosphere_dry_static_energy_transport_across_unit_distance", "northward_atmosphere_dry_static_energy_transport_across_unit_distance", .lon, .lat),
   ("eastward_atmosphere_water_transport_across_unit_distance", "northward_atmosphere_water_transport_across_unit_distance", .lon, .lat),
   ("eastward_atmosphere_water_vapor_transport_across_unit_distance", "northward_atmosphere_water_vapor_transport_across_unit_distance", .lon, .lat),
   ("eastward_derivative_of_northward_sea_ice_velocity", "northward_derivative_of_northward_sea_ice_velocity", .lon, .lat),
   ("eastward_mass_flux_of_air", "northward_mass_flux_of_air", .lon, .lat),
   ("eastward_momentum_flux_correction", "northward_momentum_flux_correction", .lon, .lat),
   ("eastward_sea_ice_displacement", "northward_sea_ice_displacement", .lon, .lat),
   ("eastward_sea_ice_velocity", "northward_sea_ice_velocity", .lon, .lat),
   ("eastward_sea_water_velocity", "northward_sea_water_velocity", .lon, .lat),
   ("eastward_sea_water_velocity_assuming_no_tide", "northward_sea_water_velocity_assuming_no_tide", .lon, .lat),
   ("eastward_transformed_eulerian_mean_air_velocity", "northward_transformed_eulerian_mean_air_velocity", .lon, .lat),
   ("eastward_transformed_eulerian_mean_velocity", "northward_transformed_eulerian_mean_velocity", .lon, .lat),
   ("eastward_water_vapor_flux_in_air", "northward_water_vapor_flux_in_air", .lon, .lat),
   ("eastward_water_vapor_flux", "northward_water_vapor_flux", .lon, .lat),
   ("eastward_water_vapor_transport_across_unit_distance_in_atmosphere_layer", "northward_water_vapor_transport_across_unit_distance_in_atmosphere_layer", .lon, .lat),
   ("eastward_wind", "northward_wind", .lon, .lat),
   ("eastward_wind_shear", "northward_wind_shear", .lon, .lat),
   ("geostrophic_eastward_wind", "geostrophic_northward_wind", .lon, .lat),
   ("product_of_eastward_sea_water_velocity_and_salinity", "product_of_northward_sea_water_velocity_and_salinity", .lon, .lat),
   ("product_of_eastward_sea_water_velocity_and_temperature", "product_of_northward_sea_water_velocity_and_temperature", .lon, .lat),
   ("product_of_eastward_wind_and_air_temperature", "product_of_northward_wind_and_air_temperature", .lon, .lat),
   ("product_of_eastward_wind_and_geopotential_height", "product_of_northward_wind_and_geopotential_height", .lon, .lat),
   ("product_of_eastward_wind_and_omega", "product_of_northward_wind_and_omega", .lon, .lat),
   ("product_of_eastward_wind_and_specific_humidity", "product_of_northward_wind_and_specific_humidity", .lon, .lat),
   ("product_of_eastward_wind_and_upward_air_velocity", "product_of_northward_wind_and_upward_air_velocity", .lon, .lat),
   ("surface_downward_eastward_stress", "surface_downward_northward_stress", .lon, .lat),
   ("surface_eastward_sea_water_velocity", "surface_northward_sea_water_velocity", .lon, .lat),
   ("surface_geostrophic_eastward_sea_water_velocity", "surface_geostrophic_northward_sea_water_velocity", .lon, .lat),
   ("surface_eastward_geostrophic_sea_water_velocity", "surface_northward_geostrophic_sea_water_velocity", .lon, .lat),
   ("surface_geostrophic_eastward_sea_water_velocity_assuming_sea_level_for_geoid", "surface_geostrophic_northward_sea_water_velocity_assuming_sea_level_for_geoid", .lon, .lat),
   ("surface_eastward_geostrophic_sea_water_velocity_assuming_sea_level_for_geoid", "surface_northward_geostrophic_sea_water_velocity_assuming_sea_level_for_geoid", .lon, .lat),
   ("tendency_of_eastward_wind", "tendency_of_northward_wind", .lon, .lat),
   ("tendency_of_eastward_wind_due_to_advection", "tendency_of_northward_wind_due_to_advection", .lon, .lat),
   ("tendency_of_eastward_wind_due_to_convection", "tendency_of_northward_wind_due_to_convection", .lon, .lat),
   ("tendency_of_eastward_wind_due_to_diffusion", "tendency_of_northward_wind_due_to_diffusion", .lon, .lat),
   ("tendency_of_eastward_wind_due_to_eliassen_palm_flux_divergence", "tendency_of_northward_wind_due_to_eliassen_palm_flux_divergence", .lon, .lat),
   ("tendency_of_eastward_wind_due_to_gravity_wave_drag", "tendency_of_northward_wind_due_to_gravity_wave_drag", .lon, .lat),
   ("tendency_of_eastward_wind_due_to_nonorographic_gravity_wave_drag", "tendency_of_northward_wind_due_to_nonorographic_gravity_wave_drag", .lon, .lat),
   ("tendency_of_eastward_wind_due_to_numerical_artefacts", "tendency_of_northward_wind_due_to_numerical_artefacts", .lon, .lat),
   ("tendency_of_eastward_wind_due_to_orographic_gravity_wave_drag", "tendency_of_northward_wind_due_to_orographic_gravity_wave_drag", .lon, .lat),
   ("upward_eastward_momentum_flux_in_air_due_to_nonorographic_eastward_gravity_waves", "upward_northward_momentum_flux_in_air_due_to_nonorographic_northward_gravity_waves", .lon, .lat),
   ("upward_flux_of_eastward_momentum_due_to_nonorographic_eastward_gravity_waves", "upward_flux_of_northward_momentum_due_to_nonorographic_northward_gravity_waves", .lon, .lat),
   ("upward_eastward_momentum_flux_in_air_due_to_nonorographic_westward_gravity_waves", "upward_northward_momentum_flux_in_air_due_to_nonorographic_westward_gravity_waves", .lon, .lat),
   ("upward_flux_of_eastward_momentum_due_to_nonorographic_westward_gravity_waves", "upward_flux_of_northward_momentum_due_to_nonorographic_westward_gravity_waves", .lon, .lat),
   ("upward_eastward_momentum_flux_in_air_due_to_orographic_gravity_waves", "upward_northward_momentum_flux_in_air_due_to_orographic_gravity_waves", .lon, .lat),
   ("upward_flux_of_eastward_momentum_due_to_orographic_gravity_waves", "upward_flux_of_northward_momentum_due_to_orographic_gravity_waves", .lon, .lat),
   ("upward_eastward_stress_at_sea_ice_base", "upward_northward_stress_at_sea_ice_base", .lon, .lat)]

/-- src/coordSys/CF1_xCoordSysBuilder.cc:580-662 `enhanceVectorProperties`. -/
def enhanceCF (L : Lib V Pr) (c : CDM Vec V CS) : CDM Vec V CS := vectorTable.foldl (enhanceVectors L) c

/-- src/coordSys/WRFCoordSysBuilder.cc:82-91, for one pair of names. -/
def wrfStep (c : CDM Vec V CS) (p : String × String) : CDM Vec V CS :=
  match getVariable c p.1, getVariable c p.2 with
  | .ok xv, .ok yv => if isVector xv then c else if isVector yv then c else setVec (setVec c p.1 yv.name .x) p.2 xv.name .y
  | _, _ => c

/-- src/coordSys/WRFCoordSysBuilder.cc:75-93 `enhanceVectorProperties`. -/
def enhanceWRF (c : CDM Vec V CS) : CDM Vec V CS := [("U", "V"), ("UAH", "VAH")].foldl wrfStep c

/-- src/coordSys/CoordinateSystem.cc:509-529 `enhanceVectorProperties`: all builders that know the dataset, or else the first one. -/
def enhance (L : Lib V Pr) (c : CDM Vec V CS) : CDM Vec V CS :=
  let c1 := if cfIsMine L c then enhanceCF L c else c
  let c2 := if wrfIsMine c1 then enhanceWRF c1 else c1
  if cfIsMine L c || wrfIsMine c1 then c2 else enhanceCF L c2

end Fimex.Vectors
