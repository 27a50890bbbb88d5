import Verif.Model.MonteCarlo

/-
Model of the folders and files written by the Monte Carlo functions of `/repo/AMAT/vehicle.py`: `runMonteCarlo`
(5754-5840), `runMonteCarlo2` (5854-5950), `runMonteCarloD` (7461-7554), `runMonteCarloD2` (7568-7666) and
`runMonteCarloD_Earth` (7682-7776), which are the same statements in this respect.

A path is the list of its components.  A text file is the list of the numbers in it (`savetxt` writes 19 significant
digits, which determine a double) or, with `fmt='%s'`, a string.  A number that is not finite is `none`, as in
`MCRecord`.  Simplified: no permissions, no full disks, no links, no other process.
-/

noncomputable section

namespace AMAT

/-- A path, e.g. `["results", "#1", "efpa.txt"]` for `results/#1/efpa.txt`. -/
abbrev Path := List String

/-- The contents of a text file written by `np.savetxt`. -/
inductive FileText where
  | numbers (l : List (Option ℝ))
  | text (s : String)

/-- The folders and files that exist. -/
structure FileSystem where
  isDir : Path → Prop
  file : Path → Option FileText

namespace FileSystem

open Classical in
/-- `os.makedirs` (vehicle.py:5771, 5816): creates a folder and the missing ones above it; raises (`none`) if something
of this name exists or if a file is in the way. -/
def makedirs (fs : FileSystem) (p : Path) : Option FileSystem :=
  if fs.isDir p ∨ ∃ q, q <+: p ∧ fs.file q ≠ none then none
  else some { fs with isDir := fun q => fs.isDir q ∨ q <+: p }

open Classical in
/-- `np.savetxt` (vehicle.py:5818-5840): writes or overwrites a file; raises (`none`) if its folder does not exist or if
it is a folder itself. -/
def savetxt (fs : FileSystem) (p : Path) (c : FileText) : Option FileSystem :=
  if fs.isDir p.dropLast ∧ ¬ fs.isDir p then some { fs with file := fun q => if q = p then some c else fs.file q }
  else none

/-- Several `np.savetxt` in order. -/
def saveAll (fs : FileSystem) : List (Path × FileText) → Option FileSystem
  | [] => some fs
  | x :: l => (fs.savetxt x.1 x.2).bind fun fs' => fs'.saveAll l

end FileSystem

/-- The seven arrays in which the results of all runs are collected (vehicle.py:5755-5761). -/
structure MCArrays where
  apoapsis : List (Option ℝ)
  periapsis : List (Option ℝ)
  periapsisRaiseDV : List (Option ℝ)
  apoapsisRaiseDV : List (Option ℝ)
  accNetGMax : List (Option ℝ)
  qStagMax : List (Option ℝ)
  heatloadMax : List (Option ℝ)

/-- `np.zeros(N)` seven times (vehicle.py:5755-5761). -/
def MCArrays.zeros (N : ℕ) : MCArrays :=
  let z := List.replicate N (some (0 : ℝ))
  ⟨z, z, z, z, z, z, z⟩

/-- vehicle.py:5804-5812: the results of run `i` (counted from 0) are stored. -/
def MCArrays.store (a : MCArrays) (i : ℕ) (r : MCRecord) : MCArrays where
  apoapsis := a.apoapsis.set i r.apoapsis
  periapsis := a.periapsis.set i r.periapsis
  periapsisRaiseDV := a.periapsisRaiseDV.set i r.periapsisRaiseDV
  apoapsisRaiseDV := a.apoapsisRaiseDV.set i r.apoapsisRaiseDV
  accNetGMax := a.accNetGMax.set i r.accNetGMax
  qStagMax := a.qStagMax.set i (some r.qStagMax)
  heatloadMax := a.heatloadMax.set i (some r.heatloadMax)

/-- `mainFolder+'/'+'#'+str(i+1)` (vehicle.py:5816). -/
def runFolder (main : Path) (i : ℕ) : Path := main ++ ["#" ++ toString (i + 1)]

/-- vehicle.py:5818-5829: the files of one run. -/
def runFiles (main : Path) (i : ℕ) (r : MCRecord) : List (Path × FileText) :=
  [(runFolder main i ++ ["atmfile.txt"], .text r.sample.file),
   (runFolder main i ++ ["profile.txt"], .numbers [some (r.sample.profile : ℝ)]),
   (runFolder main i ++ ["efpa.txt"], .numbers [some r.sample.efpa]),
   (runFolder main i ++ ["atmSigma.txt"], .numbers [some r.sample.sigma]),
   (runFolder main i ++ ["LD.txt"], .numbers [some r.sample.LD]),
   (runFolder main i ++ ["terminal_apoapsis.txt"], .numbers [r.apoapsis]),
   (runFolder main i ++ ["apoapsis_error.txt"], .numbers [r.percError]),
   (runFolder main i ++ ["terminal_periapsis.txt"], .numbers [r.periapsis]),
   (runFolder main i ++ ["periapsis_raise_DV.txt"], .numbers [r.periapsisRaiseDV]),
   (runFolder main i ++ ["apoapsis_raise_DV.txt"], .numbers [r.apoapsisRaiseDV])]

/-- vehicle.py:5832-5840: the arrays, saved after every run. -/
def summaryFiles (main : Path) (a : MCArrays) : List (Path × FileText) :=
  [(main ++ ["terminal_apoapsis_arr.txt"], .numbers a.apoapsis),
   (main ++ ["terminal_periapsis_arr.txt"], .numbers a.periapsis),
   (main ++ ["periapsis_raise_DV_arr.txt"], .numbers a.periapsisRaiseDV),
   (main ++ ["apoapsis_raise_DV_arr.txt"], .numbers a.apoapsisRaiseDV),
   (main ++ ["acc_net_g_max_arr.txt"], .numbers a.accNetGMax),
   (main ++ ["q_stag_max_arr.txt"], .numbers a.qStagMax),
   (main ++ ["heatload_max_arr.txt"], .numbers a.heatloadMax)]

/-- How a Monte Carlo simulation with its files ends: as its runs do, or because the operating system refuses. -/
inductive MCFileEnd where
  | runs (e : MCEnd)
  | refused

/-- The loop over the runs with the files they leave (vehicle.py:5776-5840). -/
def mcFileLoop (M : MCVariant) (S : MCSetup) (fuel : ℕ) (main : Path) :
    ℕ → MCArrays → FileSystem → MCState → List MCSample → FileSystem × MCFileEnd
  | _, _, fs, _, [] => (fs, .runs .done)
  | i, a, fs, s, x :: l =>
    match mcRun M S fuel s x with
    | none => (fs, .runs .running)
    | some (.error e) => (fs, .runs (.stopped e))
    | some (.ok (s', r)) =>
      match fs.makedirs (runFolder main i) with
      | none => (fs, .refused)
      | some fs₁ =>
        match fs₁.saveAll (runFiles main i r ++ summaryFiles main (a.store i r)) with
        | none => (fs₁, .refused)
        | some fs₂ => mcFileLoop M S fuel main (i + 1) (a.store i r) fs₂ s' l

/-- `runMonteCarlo(N, mainFolder)` and its variants with the files they leave (vehicle.py:5755-5840); `l` are the `N`
samples drawn. -/
def mcFiles (M : MCVariant) (S : MCSetup) (fuel : ℕ) (main : Path) (fs : FileSystem) (s : MCState) (l : List MCSample) :
    FileSystem × MCFileEnd :=
  match fs.makedirs main with
  | none => (fs, .refused)
  | some fs₁ => mcFileLoop M S fuel main 0 (MCArrays.zeros l.length) fs₁ s l

end AMAT
