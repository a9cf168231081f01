import Verif.Model.Reactions
import Verif.Model.SimpleReactions

/-!
# The reactions a user can name

The components registered under reaction equations: `include/adas_carbon.hxx`, `include/adas_lithium.hxx`, `include/adas_neon.hxx`,
`include/amjuel_helium.hxx`, `include/amjuel_hyd_ionisation.hxx`, `include/amjuel_hyd_recombination.hxx`,
`include/hydrogen_charge_exchange.hxx`, `include/solkit_hydrogen_charge_exchange.hxx`.
-/

namespace Hermes.Registry

/-- The elements with OpenADAS reactions. -/
inductive Element
  | carbon
  | lithium
  | neon
deriving DecidableEq

/-- `'0' + level`. -/
def digit (level : ℕ) : Char := Char.ofNat ('0'.toNat + level)

/-- `carbon_species_name<level>` (`include/adas_carbon.hxx:25-32`), `lithium_species_name<level>` (`include/adas_lithium.hxx:26-36`),
`neon_species_name<level>` (`include/adas_neon.hxx:26-36`). -/
def Element.species : Element → ℕ → String
  | .carbon, 0 => "c"
  | .carbon, 1 => "c+"
  | .carbon, level => String.ofList ['c', '+', digit level]
  | .lithium, 0 => "li"
  | .lithium, 1 => "li+"
  | .lithium, 3 => "li+3"
  | .lithium, level => String.ofList ['l', 'i', '+', digit level]
  | .neon, 0 => "ne"
  | .neon, 1 => "ne+"
  | .neon, 10 => "ne+10"
  | .neon, level => String.ofList ['n', 'e', '+', digit level]

/-- `carbon_ionisation_energy` (`include/adas_carbon.hxx:14-15`), `lithium_ionisation_energy` (`include/adas_lithium.hxx:14-15`),
`neon_ionisation_energy` (`include/adas_neon.hxx:14-15`), in eV. -/
noncomputable def Element.energies : Element → List ℝ
  | .carbon => [11.26, 24.38, 47.89, 64.49, 392.09, 489.99]
  | .lithium => [5.39, 75.64, 122.45]
  | .neon => [21.56, 40.96, 63.42, 97.19, 126.24, 157.93, 207.27, 239.09, 1195.78, 1362.16]

/-- An element of the array.  (An index outside is a compile-time error: the index is a template argument.) -/
noncomputable def Element.energy (el : Element) (level : ℕ) : ℝ := el.energies.getD level 0

/-- The registered classes with their template arguments. -/
inductive Entry
  /-- `AmjuelHydIonisationIsotope<Isotope>`. -/
  | hydIonisation (isotope : Char)
  /-- `AmjuelHydRecombinationIsotope<Isotope>`. -/
  | hydRecombination (isotope : Char)
  /-- `AmjuelHeIonisation01`. -/
  | heIonisation
  /-- `AmjuelHeRecombination10`. -/
  | heRecombination
  /-- `HydrogenChargeExchangeIsotope<Isotope1, Isotope2>`. -/
  | hydCX (isotope1 isotope2 : Char)
  /-- `SOLKITHydrogenChargeExchangeIsotope<Isotope>`. -/
  | solkitCX (isotope : Char)
  /-- `ADAS…Ionisation<level>`. -/
  | adasIonisation (el : Element) (level : ℕ)
  /-- `ADAS…Recombination<level>`. -/
  | adasRecombination (el : Element) (level : ℕ)
  /-- `ADAS…CX<level, Hisotope>`. -/
  | adasCX (el : Element) (level : ℕ) (isotope : Char)
deriving DecidableEq

/-- What the constructors read: normalisations, and for each component its fits or tables and its settings. -/
structure Params where
  nm : Norms
  rho_s0 : ℝ
  rate : Entry → ℝ → ℝ → ℝ
  rad : Entry → ℝ → ℝ → ℝ
  rate_multiplier : Entry → ℝ
  radiation_multiplier : Entry → ℝ
  no_neutral_cx_mom_gain : Bool

/-- `{Isotope}`. -/
def atomName (isotope : Char) : String := String.ofList [isotope]

/-- `{Isotope, '+'}`. -/
def ionName (isotope : Char) : String := String.ofList [isotope, '+']

variable {ι : Type}

/-- `transform` of the registered class: `include/amjuel_hyd_ionisation.hxx:39-46` with `src/amjuel_hyd_ionisation.cxx:67-75`,
`include/amjuel_hyd_recombination.hxx:41-48` with `src/amjuel_hyd_recombination.cxx:67-75`, `src/amjuel_helium.cxx:69-79` and `:148-158`,
`include/hydrogen_charge_exchange.hxx:143-153`, `include/solkit_hydrogen_charge_exchange.hxx:49-52`, `include/adas_carbon.hxx:39-91` and the same
lines for lithium and neon. -/
noncomputable def Entry.component (p : Params) (en : Entry) : SourceComponent ι := fun w =>
  match en with
  | .hydIonisation c => (electronReaction p.nm (p.rate en) (p.rad en) 0 (p.rate_multiplier en) (p.radiation_multiplier en) "e" (atomName c) (ionName c) w).map
      (·.contribs)
  | .hydRecombination c => (electronReaction p.nm (p.rate en) (p.rad en) 13.6 (p.rate_multiplier en) (p.radiation_multiplier en) "e" (ionName c) (atomName c)
      w).map (·.contribs)
  | .heIonisation => (electronReaction p.nm (p.rate en) (p.rad en) 0 (p.rate_multiplier en) (p.radiation_multiplier en) "e" "he" "he+" w).map (·.contribs)
  | .heRecombination => (electronReaction p.nm (p.rate en) (p.rad en) 24.586 (p.rate_multiplier en) (p.radiation_multiplier en) "e" "he+" "he" w).map
      (·.contribs)
  | .hydCX c d => (chargeExchange p.nm (p.rate_multiplier en) p.no_neutral_cx_mom_gain (atomName c) (ionName d) (atomName d) (ionName c) w).map (·.contribs)
  | .solkitCX c => solkitChargeExchange p.nm.N p.rho_s0 (atomName c) (ionName c) w
  | .adasIonisation el level => (adasReaction p.nm (p.rate en) (p.rad en) (-el.energy level) "e" (el.species level) (el.species (level + 1)) w).map (·.contribs)
  | .adasRecombination el level => (adasReaction p.nm (p.rate en) (p.rad en) (el.energy level) "e" (el.species (level + 1)) (el.species level) w).map
      (·.contribs)
  | .adasCX el level c => (adasChargeExchange p.nm (p.rate en) "e" (el.species (level + 1)) (atomName c) (el.species level) (ionName c) w).map (·.2)

/-- `include/adas_carbon.hxx:95-130`. -/
def carbonReactions : List (String × Entry) :=
  [("c + e -> c+ + 2e", .adasIonisation .carbon 0), ("c+ + e -> c+2 + 2e", .adasIonisation .carbon 1),
   ("c+2 + e -> c+3 + 2e", .adasIonisation .carbon 2), ("c+3 + e -> c+4 + 2e", .adasIonisation .carbon 3),
   ("c+4 + e -> c+5 + 2e", .adasIonisation .carbon 4), ("c+5 + e -> c+6 + 2e", .adasIonisation .carbon 5),
   ("c+ + e -> c", .adasRecombination .carbon 0), ("c+2 + e -> c+", .adasRecombination .carbon 1),
   ("c+3 + e -> c+2", .adasRecombination .carbon 2), ("c+4 + e -> c+3", .adasRecombination .carbon 3),
   ("c+5 + e -> c+4", .adasRecombination .carbon 4), ("c+6 + e -> c+5", .adasRecombination .carbon 5),
   ("c+ + h -> c + h+", .adasCX .carbon 0 'h'), ("c+2 + h -> c+ + h+", .adasCX .carbon 1 'h'),
   ("c+3 + h -> c+2 + h+", .adasCX .carbon 2 'h'), ("c+4 + h -> c+3 + h+", .adasCX .carbon 3 'h'),
   ("c+5 + h -> c+4 + h+", .adasCX .carbon 4 'h'), ("c+6 + h -> c+5 + h+", .adasCX .carbon 5 'h'),
   ("c+ + d -> c + d+", .adasCX .carbon 0 'd'), ("c+2 + d -> c+ + d+", .adasCX .carbon 1 'd'),
   ("c+3 + d -> c+2 + d+", .adasCX .carbon 2 'd'), ("c+4 + d -> c+3 + d+", .adasCX .carbon 3 'd'),
   ("c+5 + d -> c+4 + d+", .adasCX .carbon 4 'd'), ("c+6 + d -> c+5 + d+", .adasCX .carbon 5 'd'),
   ("c+ + t -> c + t+", .adasCX .carbon 0 't'), ("c+2 + t -> c+ + t+", .adasCX .carbon 1 't'),
   ("c+3 + t -> c+2 + t+", .adasCX .carbon 2 't'), ("c+4 + t -> c+3 + t+", .adasCX .carbon 3 't'),
   ("c+5 + t -> c+4 + t+", .adasCX .carbon 4 't'), ("c+6 + t -> c+5 + t+", .adasCX .carbon 5 't')]

/-- `include/adas_lithium.hxx:98-118`. -/
def lithiumReactions : List (String × Entry) :=
  [("li + e -> li+ + 2e", .adasIonisation .lithium 0), ("li+ + e -> li+2 + 2e", .adasIonisation .lithium 1),
   ("li+2 + e -> li+3 + 2e", .adasIonisation .lithium 2), ("li+ + e -> li", .adasRecombination .lithium 0),
   ("li+2 + e -> li+", .adasRecombination .lithium 1), ("li+3 + e -> li+2", .adasRecombination .lithium 2),
   ("li+ + h -> li + h+", .adasCX .lithium 0 'h'), ("li+2 + h -> li+ + h+", .adasCX .lithium 1 'h'),
   ("li+3 + h -> li+2 + h+", .adasCX .lithium 2 'h'), ("li+ + d -> li + d+", .adasCX .lithium 0 'd'),
   ("li+2 + d -> li+ + d+", .adasCX .lithium 1 'd'), ("li+3 + d -> li+2 + d+", .adasCX .lithium 2 'd'),
   ("li+ + t -> li + t+", .adasCX .lithium 0 't'), ("li+2 + t -> li+ + t+", .adasCX .lithium 1 't'),
   ("li+3 + t -> li+2 + t+", .adasCX .lithium 2 't')]

/-- `include/adas_neon.hxx:98-153`. -/
def neonReactions : List (String × Entry) :=
  [("ne + e -> ne+ + 2e", .adasIonisation .neon 0), ("ne+ + e -> ne+2 + 2e", .adasIonisation .neon 1),
   ("ne+2 + e -> ne+3 + 2e", .adasIonisation .neon 2), ("ne+3 + e -> ne+4 + 2e", .adasIonisation .neon 3),
   ("ne+4 + e -> ne+5 + 2e", .adasIonisation .neon 4), ("ne+5 + e -> ne+6 + 2e", .adasIonisation .neon 5),
   ("ne+6 + e -> ne+7 + 2e", .adasIonisation .neon 6), ("ne+7 + e -> ne+8 + 2e", .adasIonisation .neon 7),
   ("ne+8 + e -> ne+9 + 2e", .adasIonisation .neon 8), ("ne+9 + e -> ne+10 + 2e", .adasIonisation .neon 9),
   ("ne+ + e -> ne", .adasRecombination .neon 0), ("ne+2 + e -> ne+", .adasRecombination .neon 1),
   ("ne+3 + e -> ne+2", .adasRecombination .neon 2), ("ne+4 + e -> ne+3", .adasRecombination .neon 3),
   ("ne+5 + e -> ne+4", .adasRecombination .neon 4), ("ne+6 + e -> ne+5", .adasRecombination .neon 5),
   ("ne+7 + e -> ne+6", .adasRecombination .neon 6), ("ne+8 + e -> ne+7", .adasRecombination .neon 7),
   ("ne+9 + e -> ne+8", .adasRecombination .neon 8), ("ne+10 + e -> ne+9", .adasRecombination .neon 9),
   ("ne+ + h -> ne + h+", .adasCX .neon 0 'h'), ("ne+2 + h -> ne+ + h+", .adasCX .neon 1 'h'),
   ("ne+3 + h -> ne+2 + h+", .adasCX .neon 2 'h'), ("ne+4 + h -> ne+3 + h+", .adasCX .neon 3 'h'),
   ("ne+5 + h -> ne+4 + h+", .adasCX .neon 4 'h'), ("ne+6 + h -> ne+5 + h+", .adasCX .neon 5 'h'),
   ("ne+7 + h -> ne+6 + h+", .adasCX .neon 6 'h'), ("ne+8 + h -> ne+7 + h+", .adasCX .neon 7 'h'),
   ("ne+9 + h -> ne+8 + h+", .adasCX .neon 8 'h'), ("ne+10 + h -> ne+9 + h+", .adasCX .neon 9 'h'),
   ("ne+ + d -> ne + d+", .adasCX .neon 0 'd'), ("ne+2 + d -> ne+ + d+", .adasCX .neon 1 'd'),
   ("ne+3 + d -> ne+2 + d+", .adasCX .neon 2 'd'), ("ne+4 + d -> ne+3 + d+", .adasCX .neon 3 'd'),
   ("ne+5 + d -> ne+4 + d+", .adasCX .neon 4 'd'), ("ne+6 + d -> ne+5 + d+", .adasCX .neon 5 'd'),
   ("ne+7 + d -> ne+6 + d+", .adasCX .neon 6 'd'), ("ne+8 + d -> ne+7 + d+", .adasCX .neon 7 'd'),
   ("ne+9 + d -> ne+8 + d+", .adasCX .neon 8 'd'), ("ne+10 + d -> ne+9 + d+", .adasCX .neon 9 'd'),
   ("ne+ + t -> ne + t+", .adasCX .neon 0 't'), ("ne+2 + t -> ne+ + t+", .adasCX .neon 1 't'),
   ("ne+3 + t -> ne+2 + t+", .adasCX .neon 2 't'), ("ne+4 + t -> ne+3 + t+", .adasCX .neon 3 't'),
   ("ne+5 + t -> ne+4 + t+", .adasCX .neon 4 't'), ("ne+6 + t -> ne+5 + t+", .adasCX .neon 5 't'),
   ("ne+7 + t -> ne+6 + t+", .adasCX .neon 6 't'), ("ne+8 + t -> ne+7 + t+", .adasCX .neon 7 't'),
   ("ne+9 + t -> ne+8 + t+", .adasCX .neon 8 't'), ("ne+10 + t -> ne+9 + t+", .adasCX .neon 9 't')]

/-- `include/amjuel_helium.hxx:84-85`. -/
def heliumReactions : List (String × Entry) :=
  [("he + e -> he+ + 2e", .heIonisation), ("he+ + e -> he", .heRecombination)]

/-- `include/amjuel_hyd_ionisation.hxx:121-125`. -/
def hydrogenIonisationReactions : List (String × Entry) :=
  [("h + e -> h+ + 2e", .hydIonisation 'h'), ("d + e -> d+ + 2e", .hydIonisation 'd'), ("t + e -> t+ + 2e", .hydIonisation 't')]

/-- `include/amjuel_hyd_recombination.hxx:126-130`. -/
def hydrogenRecombinationReactions : List (String × Entry) :=
  [("h+ + e -> h", .hydRecombination 'h'), ("d+ + e -> d", .hydRecombination 'd'), ("t+ + e -> t", .hydRecombination 't')]

/-- `include/hydrogen_charge_exchange.hxx:274-294`. -/
def hydrogenCXReactions : List (String × Entry) :=
  [("h + h+ -> h+ + h", .hydCX 'h' 'h'), ("d + d+ -> d+ + d", .hydCX 'd' 'd'), ("t + t+ -> t+ + t", .hydCX 't' 't'),
   ("h + d+ -> h+ + d", .hydCX 'h' 'd'), ("d + h+ -> d+ + h", .hydCX 'd' 'h'), ("h + t+ -> h+ + t", .hydCX 'h' 't'),
   ("t + h+ -> t+ + h", .hydCX 't' 'h'), ("d + t+ -> d+ + t", .hydCX 'd' 't'), ("t + d+ -> t+ + d", .hydCX 't' 'd')]

/-- `include/solkit_hydrogen_charge_exchange.hxx:57-61`. -/
def solkitReactions : List (String × Entry) :=
  [("solkit h + h+ -> h+ + h", .solkitCX 'h'), ("solkit d + d+ -> d+ + d", .solkitCX 'd'), ("solkit t + t+ -> t+ + t", .solkitCX 't')]

/-- All of them. -/
def registry : List (String × Entry) :=
  carbonReactions ++ lithiumReactions ++ neonReactions ++ heliumReactions ++ hydrogenIonisationReactions ++ hydrogenRecombinationReactions ++
    hydrogenCXReactions ++ solkitReactions

/-- `Component::create(type, …)` for a reaction: the component registered under this name.  An unknown name throws. -/
def create (type : String) : Option Entry := registry.lookup type

end Hermes.Registry
