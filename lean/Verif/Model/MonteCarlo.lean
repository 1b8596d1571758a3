import Mathlib.Data.Nat.Log

/-!
# Model of the sets of Monte Carlo runs (`eval/run.py`, `eval/utilities.py`)

Paths are lists of characters with the separator `/`; the working directory is not modelled (run.py:142 makes a path absolute
before it is used).  Numbers of runs are natural numbers.
-/

namespace EkfCal.Mc

/-- The configuration of a simulation: the entries that the script reads or changes, and all others. -/
structure Cfg (T R : Type) where
  seed : Nat
  numberOfRuns : Nat
  runNumber : Nat
  maxTime : T
  rest : R
  deriving DecidableEq

abbrev Path := List Char

/-- `path.split('.yaml')[0]` (Python): the text before the first occurrence -/
def beforeYaml : Path → Path
  | [] => []
  | c :: cs => if ".yaml".toList.isPrefixOf (c :: cs) then [] else c :: beforeYaml cs

/-- `os.path.basename` (Python) -/
def baseName (p : Path) : Path := (p.reverse.takeWhile (· ≠ '/')).reverse

/-- `'{:0{d}.0f}'.format(i)` (Python): at least `d` digits -/
def padded (d i : Nat) : Path := List.replicate (d - (Nat.toDigits 10 i).length) '0' ++ Nat.toDigits 10 i

/-- run.py:94-97 and utilities.py:216-218: the number of runs; an argument of zero counts as none -/
def numRuns (arg : Option Nat) (cfg : Nat) : Nat :=
  match arg with
  | some (n + 1) => n + 1
  | _ => cfg

/-- run.py:100-105, 113 and 123-124, utilities.py:220-226: the file of the run `i` of `n`; `math.ceil(math.log10(n))` digits -/
def runFile (input : Path) (n i : Nat) : Path :=
  beforeYaml input ++ '/' :: ("runs".toList ++ '/' :: (beforeYaml (baseName input) ++
    '_' :: (padded (Nat.clog 10 n) i ++ ".yaml".toList)))

/-- run.py:115-122: one turn of the loop.  `sub_yaml` is `top_yaml` itself, so a turn goes on from the turn before; `time` is
the argument if it was given and is not zero; `draw` are the numbers of `random.randint` after `random.seed` with the
configured seed. -/
def turn {T R : Type} (draw : Nat → Nat) (seed : Nat) (time : Option T) (i : Nat) (c : Cfg T R) : Cfg T R :=
  { c with
    seed := if seed ≠ 0 then draw i else c.seed
    numberOfRuns := 1
    runNumber := c.runNumber + i
    maxTime := time.getD c.maxTime }

/-- run.py:114-127: the loop over the runs `is` -/
def turns {T R : Type} (draw : Nat → Nat) (seed : Nat) (time : Option T) (file : Nat → Path) :
    List Nat → Cfg T R → List (Path × Cfg T R)
  | [], _ => []
  | i :: is, c =>
    let c' := turn draw seed time i c
    (file i, c') :: turns draw seed time file is c'

/-- run.py:84-133 `generate_mc_from_yaml`: the files that are simulated, with their contents -/
def generate {T R : Type} (draw : Nat → Nat → Nat) (arg : Option Nat) (time : Option T) (input : Path) (c : Cfg T R) :
    List (Path × Cfg T R) :=
  let n := numRuns arg c.numberOfRuns
  if 1 < n then turns (draw c.seed) c.seed time (runFile input n) (List.range n) c else [(input, c)]

/-- utilities.py:207-233 `generate_mc_lists`: the files that are evaluated for one input -/
def evaluated {T R : Type} (arg : Option Nat) (input : Path) (c : Cfg T R) : List Path :=
  let n := numRuns arg c.numberOfRuns
  if 1 < n then (List.range n).map (runFile input n) else [input]

/-- run.py:57 and stats.py:320: the directory with the results of a run -/
def dataDir (file : Path) : Path := beforeYaml file

/-- simulation.cpp:202-207, sim_rng.cpp:22-27: the seed of the generator of a simulation.  A seed of zero leaves the generator
as it was constructed, which is with the seed 5489 (C++ standard, `default_seed` of `std::mt19937_64`). -/
def generator (seed : Nat) : Nat := if 0 < seed then seed else 5489

/-- What the results of a simulation depend on: the simulator reads neither the number of the run nor that of the runs. -/
def simInput {T R : Type} (c : Cfg T R) : Nat × T × R := (generator c.seed, c.maxTime, c.rest)

end EkfCal.Mc
