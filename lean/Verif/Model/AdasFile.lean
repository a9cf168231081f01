import Verif.Model.Registry

/-!
# Reading the OpenADAS tables

`src/adas_reaction.cxx:31-59`, and the names of the files in `include/adas_carbon.hxx`, `include/adas_lithium.hxx`, `include/adas_neon.hxx`.
-/

namespace Hermes

/-- The contents of a file: a coefficient for each level, temperature and density. -/
structure AdasFile where
  log_coeff : List (List (List ℝ))
  log_temperature : List ℝ
  log_density : List ℝ

/-- `OpenADASRateCoefficient::OpenADASRateCoefficient(filename, level)`, `src/adas_reaction.cxx:31-52`.  A file that cannot be read is
reported; a level outside the array is read without a check (`none`). -/
def adasLoad (db : String → Option AdasFile) (filename : String) (level : ℕ) : Except String (Option AdasTable) :=
  match db filename with
  | none => .error s!"Could not read ADAS file '{filename}'"
  | some d => .ok (d.log_coeff[level]?.map fun c => ⟨c, d.log_temperature, d.log_density⟩)

namespace Registry

/-- The files and the level that a reaction reads: rate and radiation; rate only for charge exchange.  `include/adas_carbon.hxx:40, 61, 79`,
`include/adas_lithium.hxx:43, 64, 82`, `include/adas_neon.hxx:43, 64, 82`. -/
def Entry.files : Entry → List (String × ℕ)
  | .adasIonisation .carbon level => [("scd96_c.json", level), ("plt96_c.json", level)]
  | .adasRecombination .carbon level => [("acd96_c.json", level), ("prb96_c.json", level)]
  | .adasCX .carbon level _ => [("ccd96_c.json", level)]
  | .adasIonisation .lithium level => [("scd96_li.json", level), ("plt96_li.json", level)]
  | .adasRecombination .lithium level => [("acd96_li.json", level), ("prb96_li.json", level)]
  | .adasCX .lithium level _ => [("ccd89_li.json", level)]
  | .adasIonisation .neon level => [("scd96_ne.json", level), ("plt96_ne.json", level)]
  | .adasRecombination .neon level => [("acd96_ne.json", level), ("prb96_ne.json", level)]
  | .adasCX .neon level _ => [("ccd89_ne.json", level)]
  | _ => []

end Registry

namespace AdasData

/-- A file in a compact form, see `Model/AdasData.lean`. -/
structure PackedFile where
  temperature : List ℕ
  density : List ℕ
  levels : List ℕ

/-- The last `k` groups of eight digits. -/
def unpack : ℕ → ℕ → List ℕ → List ℕ
  | 0, _, acc => acc
  | k + 1, N, acc => unpack k (N / 10 ^ 8) (N % 10 ^ 8 :: acc)

/-- The last `k` groups of `m` groups of eight digits. -/
def rows (m : ℕ) : ℕ → ℕ → List (List ℕ) → List (List ℕ)
  | 0, _, acc => acc
  | k + 1, N, acc => rows m k (N / 10 ^ (8 * m)) (unpack m (N % 10 ^ (8 * m)) [] :: acc)

/-- The coefficients of a level, as whole numbers. -/
def PackedFile.level (p : PackedFile) (N : ℕ) : List (List ℕ) := rows p.density.length p.temperature.length N []

/-- The number that a whole number stands for. -/
noncomputable def number (c : ℕ) : ℝ := (c : ℝ) / 10 ^ 5 - 100

/-- The contents of the file. -/
noncomputable def PackedFile.file (p : PackedFile) : AdasFile where
  log_coeff := p.levels.map fun N => (p.level N).map (·.map number)
  log_temperature := p.temperature.map number
  log_density := p.density.map number

end AdasData

end Hermes
