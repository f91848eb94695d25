import Mathlib.Data.List.Basic
import Mathlib.Algebra.Order.Field.Rat

/-!
# Model of the tool for scalability experiments

Models `source/quality_assurance/scalability/command/scalability/experiment` (`E` below): which benchmarks are part of a
strong or weak scalability experiment, how they are started, and what is imported from the results.

Simplifications: all numbers in the configuration are natural numbers. Names of commands, scheduler settings, and performance
counters are not modelled. The text of the scripts is not modelled either, only what each of the job steps in it is started
with. Durations and derived quantities are rational numbers instead of floating point numbers. A file with results is
identified by what distinguishes it from the other ones of the same experiment: the number of workers
(`E/strong_scalability/experiment.py:34-40`, `E/weak_scalability/experiment.py:34-40`).
-/
namespace Lue.Scalability

/-- What can be wrong: an assertion fails, an item is not present (`KeyError`, `IndexError`), a file does not exist, or a
loop does not end. -/
inductive Err where
  | assertion | key | file | diverged
  deriving DecidableEq, Repr

/-- `assert` -/
def require (p : Prop) [Decidable p] : Except Err Unit := if p then .ok () else .error .assertion

/-- `data["key"]` -/
def item {α : Type} : Option α → Except Err α
  | some x => .ok x
  | none => .error .key

/-! ### `E/pool.py` -/

/-- The description of a pool, in a JSON file. Items may be missing. -/
structure PoolJson where
  multiplier : Option Nat := none
  incrementor : Option Nat := none
  minSize : Option Nat := none
  maxSize : Option Nat := none
  size : Option Nat := none
  deriving DecidableEq, Repr

/-- Ranges of workers: `E/pool.py:21-64`, `67-114` and `117-149` -/
inductive WorkerRange where
  | multiplied (minSize maxSize multiplier : Nat)
  | incremented (minSize maxSize incrementor : Nat)
  | empty (size : Nat)
  deriving DecidableEq, Repr

/-- The loop in `E/pool.py:43-52`, with a bound on the number of iterations. State: `size` and `nr`. -/
def countMultiplied : Nat → Nat → Nat → Nat → Nat → Except Err Nat
  | 0, _, _, _, _ => .error .diverged
  | fuel + 1, multiplier, maxSize, size, nr =>
    if multiplier * size ≤ maxSize then countMultiplied fuel multiplier maxSize (size * multiplier) (nr + 1)
    else .ok nr

/-- The loop in `E/pool.py:91-102`, idem. -/
def countIncremented : Nat → Nat → Nat → Nat → Nat → Except Err Nat
  | 0, _, _, _, _ => .error .diverged
  | fuel + 1, incrementor, maxSize, size, nr =>
    if size ≤ maxSize then countIncremented fuel incrementor maxSize (size + incrementor) (nr + 1)
    else .ok nr

/-- The number of iterations within which all loops must have ended. -/
def bound (maxSize : Nat) : Nat := maxSize + 2

/-- `nr_permutations`: `E/pool.py:43-52, 91-102, 143-145` -/
def WorkerRange.nrPermutations : WorkerRange → Except Err Nat
  | .multiplied minSize maxSize multiplier => countMultiplied (bound maxSize) multiplier maxSize minSize 1
  | .incremented minSize maxSize incrementor =>
    countIncremented (bound maxSize) incrementor maxSize (minSize + incrementor) 1
  | .empty _ => .ok 1

/-- The loops in `permutation_size`: `step` is performed for each index from `idx - 1` to zero, `E/pool.py:57-62, 107-112`. -/
def repeated (step : Nat → Nat) : Nat → Nat → Nat
  | 0, size => size
  | idx + 1, size => repeated step idx (step size)

/-- `permutation_size`, without the assertion: `E/pool.py:57-64, 107-114, 149` -/
def WorkerRange.sizeAt (idx : Nat) : WorkerRange → Nat
  | .multiplied minSize _ multiplier => repeated (fun size => size * multiplier) idx minSize
  | .incremented minSize _ incrementor => repeated (fun size => size + incrementor) idx minSize
  | .empty size => size

/-- `permutation_size`: `E/pool.py:54-64, 104-114, 147-149` -/
def WorkerRange.permutationSize (r : WorkerRange) (idx : Nat) : Except Err Nat := do
  let nr ← r.nrPermutations
  require (idx < nr)
  .ok (r.sizeAt idx)

/-- Replace the maximum size. -/
def WorkerRange.withMax (m : Nat) : WorkerRange → WorkerRange
  | .multiplied minSize _ multiplier => .multiplied minSize m multiplier
  | .incremented minSize _ incrementor => .incremented minSize m incrementor
  | .empty size => .empty size

/-- `min_size` -/
def WorkerRange.minSize : WorkerRange → Nat
  | .multiplied m _ _ | .incremented m _ _ | .empty m => m

/-- `max_size` -/
def WorkerRange.maxSize : WorkerRange → Nat
  | .multiplied _ m _ | .incremented _ m _ | .empty m => m

/-- `WorkerRange.__init__`: the maximum size becomes the largest size used, `E/pool.py:2-12` -/
def WorkerRange.init (r : WorkerRange) : Except Err WorkerRange := do
  require (0 < r.minSize)
  require (r.minSize ≤ r.maxSize)
  let nr ← r.nrPermutations
  let m ← r.permutationSize (nr - 1)
  .ok (r.withMax m)

/-- `MultipliedWorkerRange(data)`: `E/pool.py:22-24, 33-35` -/
def makeMultiplied (j : PoolJson) (multiplier : Nat) : Except Err WorkerRange := do
  require (1 < multiplier)
  let minSize ← item j.minSize
  let maxSize ← item j.maxSize
  (WorkerRange.multiplied minSize maxSize multiplier).init

/-- `IncrementedWorkerRange(data)`: `E/pool.py:68-70, 81-83` -/
def makeIncremented (j : PoolJson) (incrementor : Nat) : Except Err WorkerRange := do
  require (1 ≤ incrementor)
  let minSize ← item j.minSize
  let maxSize ← item j.maxSize
  (WorkerRange.incremented minSize maxSize incrementor).init

/-- `EmptyWorkerRange(data)`: `E/pool.py:123-136` -/
def makeEmpty (j : PoolJson) : Except Err WorkerRange := do
  let size ← item j.size
  require (1 ≤ size)
  (WorkerRange.empty size).init

/-- `Pool.__init__`: `E/pool.py:153-159` -/
def makePool (j : PoolJson) : Except Err WorkerRange :=
  match j.multiplier, j.incrementor with
  | some m, _ => makeMultiplied j m
  | none, some i => makeIncremented j i
  | none, none => makeEmpty j

/-- `to_json`: `E/pool.py:14-18, 37-41, 85-89, 138-141` -/
def WorkerRange.toJson : WorkerRange → PoolJson
  | .multiplied minSize maxSize multiplier =>
    { multiplier := some multiplier, minSize := some minSize, maxSize := some maxSize }
  | .incremented minSize maxSize incrementor =>
    { incrementor := some incrementor, minSize := some minSize, maxSize := some maxSize }
  | .empty size => { size := some size }

/-! ### `E/cluster.py` -/

/-- A cluster: `E/cluster.py:19-117, 221-242`. -/
structure Cluster where
  nrClusterNodes : Nat
  nrPackages : Nat
  nrNumaNodesPerPackage : Nat
  nrCoresPerNumaNode : Nat
  /-- Job scheduler is Slurm. If not, a shell script is created. -/
  slurm : Bool
  deriving DecidableEq, Repr

/-- `ClusterNode.nr_numa_nodes`: `E/cluster.py:94-96` -/
def Cluster.nrNumaNodes (c : Cluster) : Nat := c.nrPackages * c.nrNumaNodesPerPackage

/-- `ClusterNode.nr_cores`: `E/cluster.py:102-104, 65-67` -/
def Cluster.nrCores (c : Cluster) : Nat := c.nrPackages * (c.nrNumaNodesPerPackage * c.nrCoresPerNumaNode)

/-! ### `E/worker.py` -/

/-- Type of workers -/
inductive WorkerType where
  | thread | numaNode | clusterNode
  deriving DecidableEq, Repr

/-- Processes are started per cluster node or per NUMA node. -/
inductive LocalityPer where
  | clusterNode | numaNode
  deriving DecidableEq, Repr

/-- An instance of `Worker`. -/
structure Worker where
  type : WorkerType
  pool : WorkerRange
  minNrClusterNodes : Nat
  maxNrClusterNodes : Nat
  minNrNumaNodes : Nat
  maxNrNumaNodes : Nat
  minNrThreads : Nat
  maxNrThreads : Nat
  deriving DecidableEq, Repr

/-- The last assertions in `Worker.__init__`: `E/worker.py:53-55` -/
def Worker.checked (w : Worker) : Except Err Worker := do
  require (1 ≤ w.minNrClusterNodes ∧ w.minNrClusterNodes ≤ w.maxNrClusterNodes)
  require (1 ≤ w.minNrNumaNodes ∧ w.minNrNumaNodes ≤ w.maxNrNumaNodes)
  require (1 ≤ w.minNrThreads ∧ w.minNrThreads ≤ w.maxNrThreads)
  .ok w

/-- `Worker.__init__`, given the pool: `E/worker.py:19-55` -/
def workerOf (c : Cluster) (per : LocalityPer) (p : WorkerRange) : WorkerType → Except Err Worker
  | .thread =>
    match per with
    | .clusterNode => Worker.checked ⟨.thread, p, 1, 1, c.nrNumaNodes, c.nrNumaNodes, p.minSize, p.maxSize⟩
    | .numaNode => Worker.checked ⟨.thread, p, 1, 1, 1, 1, p.minSize, p.maxSize⟩
  | .numaNode => do
    require (per = .numaNode)
    Worker.checked ⟨.numaNode, p, 1, 1, p.minSize, p.maxSize, c.nrCoresPerNumaNode, c.nrCoresPerNumaNode⟩
  | .clusterNode => do
    require (per = .numaNode)
    Worker.checked
      ⟨.clusterNode, p, p.minSize, p.maxSize, c.nrNumaNodes, c.nrNumaNodes, c.nrCoresPerNumaNode, c.nrCoresPerNumaNode⟩

/-- `nr_cluster_nodes_range`: `E/worker.py:75-80` -/
def Worker.nrClusterNodesRange (w : Worker) : Nat := w.maxNrClusterNodes - w.minNrClusterNodes

/-- `nr_numa_nodes_range`: `E/worker.py:82-87` -/
def Worker.nrNumaNodesRange (w : Worker) : Nat := w.maxNrNumaNodes - w.minNrNumaNodes

/-- `nr_threads_range`: `E/worker.py:89-94` -/
def Worker.nrThreadsRange (w : Worker) : Nat := w.maxNrThreads - w.minNrThreads

/-! ### `E/benchmark.py` -/

/-- Description of a benchmark, in a JSON file: `E/benchmark.py:148-165` -/
structure BenchmarkJson where
  count : Nat
  localityPer : LocalityPer
  workerType : WorkerType
  pool : PoolJson
  deriving DecidableEq, Repr

/-- An instance of `Benchmark`. -/
structure Benchmark where
  count : Nat
  localityPer : LocalityPer
  worker : Worker
  deriving DecidableEq, Repr

/-- The assertions in `Benchmark.__init__`: `E/benchmark.py:51-143` -/
def Benchmark.checked (c : Cluster) (b : Benchmark) : Except Err Benchmark :=
  match b.worker.type with
  | .thread =>
    match b.localityPer with
    | .numaNode => do
      require (b.worker.minNrClusterNodes = 1 ∧ b.worker.maxNrClusterNodes = 1)
      require (b.worker.minNrNumaNodes = 1 ∧ b.worker.maxNrNumaNodes = 1)
      require (1 ≤ b.worker.minNrThreads)
      require (b.worker.maxNrThreads ≤ c.nrCoresPerNumaNode)
      .ok b
    | .clusterNode => do
      require (b.worker.minNrClusterNodes = 1 ∧ b.worker.maxNrClusterNodes = 1)
      require (1 ≤ b.worker.minNrThreads)
      require (b.worker.maxNrThreads ≤ c.nrCores)
      .ok b
  | .numaNode => do
    require (b.localityPer = .numaNode)
    require (b.worker.minNrClusterNodes = 1 ∧ b.worker.maxNrClusterNodes = 1)
    require (1 ≤ b.worker.minNrNumaNodes)
    require (b.worker.maxNrNumaNodes ≤ c.nrNumaNodes)
    require (b.worker.minNrThreads = c.nrCoresPerNumaNode ∧ b.worker.maxNrThreads = c.nrCoresPerNumaNode)
    .ok b
  | .clusterNode => do
    require (b.localityPer = .numaNode)
    require (1 ≤ b.worker.minNrClusterNodes)
    require (b.worker.maxNrClusterNodes ≤ c.nrClusterNodes)
    require (b.worker.minNrNumaNodes = c.nrNumaNodes ∧ b.worker.maxNrNumaNodes = c.nrNumaNodes)
    require (b.worker.minNrThreads = c.nrCoresPerNumaNode ∧ b.worker.maxNrThreads = c.nrCoresPerNumaNode)
    .ok b

/-- `Benchmark.__init__`: `E/benchmark.py:34-143`, `E/worker.py:63-67` -/
def makeBenchmark (c : Cluster) (j : BenchmarkJson) : Except Err Benchmark := do
  let p ← makePool j.pool
  let w ← workerOf c j.localityPer p j.workerType
  Benchmark.checked c ⟨j.count, j.localityPer, w⟩

/-- `Benchmark.to_json`: `E/benchmark.py:167-179`, `E/worker.py:69-73` -/
def Benchmark.toJson (b : Benchmark) : BenchmarkJson := ⟨b.count, b.localityPer, b.worker.type, b.worker.pool.toJson⟩

/-! ### Scripts -/

/-- A job step: the program is started once. -/
structure Run where
  /-- Number of cluster nodes reserved -/
  nodes : Nat
  /-- Number of processes -/
  tasks : Nat
  /-- `--hpx:threads`, per process -/
  threads : Nat
  /-- `--lue:nr_workers`, which also determines the name of the file with results: `E/job.py:42-75` -/
  nrWorkers : Nat
  /-- `--lue:count` -/
  count : Nat
  /-- `--lue:array_shape` -/
  arrayShape : List Nat
  /-- `--lue:partition_shape` -/
  partitionShape : List Nat
  deriving DecidableEq, Repr

/-- Kind of experiment -/
inductive Kind where
  | strong | weak
  deriving DecidableEq, Repr

/-- An experiment: `E/strong_scalability/experiment.py`, `E/weak_scalability/experiment.py`. Shapes are fixed. `scaled` is
`int(round(nr_workers ** (1.0 / rank) * extent))` (`E/weak_scalability/generate_script.py:13-14, 23`): floating point arithmetic
is not modelled. -/
structure Experiment where
  kind : Kind
  arrayShape : List Nat
  partitionShape : List Nat
  scaled : Nat → Nat → Nat → Nat

/-- `reduce((lambda x, y: x * y), shape)` -/
def nrElements (shape : List Nat) : Nat := shape.foldl (· * ·) 1

/-- The difference between natural numbers -/
def absDiff (a b : Nat) : Nat := (a - b) + (b - a)

/-- `scale_array_shape`: `E/weak_scalability/generate_script.py:17-31` -/
def scaleArrayShape (scaled : Nat → Nat → Nat → Nat) (shape : List Nat) (nrWorkers : Nat) : Except Err (List Nat) := do
  let result := shape.map (scaled shape.length nrWorkers)
  let want := nrWorkers * nrElements shape
  require (1000 * absDiff (nrElements result) want < want)
  .ok result

/-- The shape of the array to use, given the number of workers -/
def Experiment.shapeFor (e : Experiment) (nrWorkers : Nat) : Except Err (List Nat) :=
  match e.kind with
  | .strong => .ok e.arrayShape
  | .weak => scaleArrayShape e.scaled e.arrayShape nrWorkers

/-- What is done for each index: `f`, for the number of workers. -/
def perBenchmark (b : Benchmark) (f : Nat → Except Err Run) : Except Err (List Run) := do
  let nr ← b.worker.pool.nrPermutations
  (List.range nr).mapM fun idx => do
    let nrWorkers ← b.worker.pool.permutationSize idx
    f nrWorkers

/-- `E/strong_scalability/generate_script.py:25-44` and `299-321`, `E/weak_scalability/generate_script.py:52-72`: threads
in a single process -/
def runThreads (b : Benchmark) (e : Experiment) (nrWorkers : Nat) : Except Err Run := do
  let shape ← e.shapeFor nrWorkers
  .ok ⟨1, 1, nrWorkers, nrWorkers, b.count, shape, if nrWorkers > 1 then e.partitionShape else shape⟩

/-- `E/strong_scalability/generate_script.py:103-134`, `E/weak_scalability/generate_script.py:132-165`: a process per NUMA node -/
def runNumaNodes (b : Benchmark) (e : Experiment) (nrWorkers : Nat) : Except Err Run := do
  require (b.worker.nrThreadsRange = 0)
  let shape ← e.shapeFor nrWorkers
  .ok ⟨1, nrWorkers, b.worker.minNrThreads, nrWorkers, b.count, shape, e.partitionShape⟩

/-- `E/strong_scalability/generate_script.py:185-224`, `E/weak_scalability/generate_script.py:216-258`: a process per NUMA node in all cluster nodes used -/
def runClusterNodes (b : Benchmark) (e : Experiment) (nrWorkers : Nat) : Except Err Run := do
  require (b.worker.nrThreadsRange = 0)
  require (b.worker.nrNumaNodesRange = 0)
  let shape ← e.shapeFor nrWorkers
  .ok ⟨nrWorkers, nrWorkers * b.worker.minNrNumaNodes, b.worker.minNrThreads, nrWorkers, b.count, shape, e.partitionShape⟩

/-- The job steps: `E/strong_scalability/generate_script.py:262-370`, `E/weak_scalability/generate_script.py:295-405`. -/
def script (c : Cluster) (b : Benchmark) (e : Experiment) : Except Err (List Run) := do
  require ((if b.worker.nrClusterNodesRange > 0 then 1 else 0) + (if b.worker.nrNumaNodesRange > 0 then 1 else 0) +
    (if b.worker.nrThreadsRange > 0 then 1 else 0) = 1)
  if c.slurm then
    if b.worker.nrClusterNodesRange > 0 then perBenchmark b (runClusterNodes b e)
    else if b.worker.nrNumaNodesRange > 0 then perBenchmark b (runNumaNodes b e)
    else perBenchmark b (runThreads b e)
  else do
    require (b.worker.type = .thread)
    perBenchmark b (runThreads b e)

/-! ### Results -/

/-- A file with results: the start of the benchmark, in microseconds, and the duration of each repetition. -/
structure Result where
  start : Int
  durations : List Rat
  /-- The number passed to the program -/
  nrWorkers : Nat

/-- The measurement of a benchmark in the dataset: `E/strong_scalability/import_results.py:146-160, 190-206` -/
structure Row where
  /-- Location in time, relative to the epoch, in seconds -/
  offset : Int
  durations : List Rat
  nrWorkers : Nat

/-- Insert, after the items that start at the same time. -/
def insertByTime (x : Result) : List Result → List Result
  | [] => [x]
  | y :: ys => if x.start < y.start then x :: y :: ys else y :: insertByTime x ys

/-- `items.sort(key=...)`, which is stable: `E/util.py:25` -/
def sortByTime (l : List Result) : List Result := l.foldl (fun acc x => insertByTime x acc) []

/-- Reading of a file. -/
def readResult (files : Nat → Option Result) (nrWorkers : Nat) : Except Err Result :=
  match files nrWorkers with
  | some r => .ok r
  | none => .error .file

/-- `int((benchmark_epoch - epoch).total_seconds())`, which truncates: `E/strong_scalability/import_results.py:134` -/
def offset (epoch start : Int) : Int := (start - epoch).tdiv 1000000

/-- `benchmark_to_lue_json`: `E/strong_scalability/import_results.py:124-214` -/
def toRow (epoch : Int) (r : Result) : Except Err Row := do
  require (0 ≤ offset epoch r.start)
  .ok ⟨offset epoch r.start, r.durations, r.nrWorkers⟩

/-- The first item -/
def firstStart : List Result → Except Err Int
  | r :: _ => .ok r.start
  | [] => .error .assertion

/-- `import_raw_results`: `E/strong_scalability/import_results.py:217-273`, `E/util.py:8-33` -/
def importRaw (b : Benchmark) (files : Nat → Option Result) : Except Err (List Row) := do
  let nr ← b.worker.pool.nrPermutations
  let items ← (List.range nr).mapM fun idx => do
    let nrWorkers ← b.worker.pool.permutationSize idx
    readResult files nrWorkers
  let sorted := sortByTime items
  let epoch ← firstStart sorted
  sorted.mapM (toRow epoch)

/-- A derived measurement: `E/strong_scalability/import_results.py:309-331` -/
structure Scaling where
  nrWorkers : Nat
  durations : List Rat
  speedUp : List Rat
  efficiency : List Rat

/-- Division of arrays with the same shape -/
def divide (x y : List Rat) : List Rat := List.zipWith (· / ·) x y

/-- `np.where(nr_workers == 1)[0][0]`: the first measurement for a single worker. -/
def single : List Row → Except Err Row
  | [] => .error .key
  | r :: rs => if r.nrWorkers = 1 then .ok r else single rs

/-- `write_scalability_results`, for strong scaling: `E/strong_scalability/import_results.py:276-331` -/
def strongScaling (rows : List Row) : Except Err (List Scaling) := do
  let t1 ← single rows
  .ok (rows.map fun r =>
    let s := divide t1.durations r.durations
    ⟨r.nrWorkers, r.durations, s, s.map fun x => 100 * x / r.nrWorkers⟩)

/-- `write_scalability_results`, for weak scaling, in which no speed-up is computed:
`E/weak_scalability/import_results.py:291-334` -/
def weakScaling (rows : List Row) : Except Err (List Scaling) := do
  let t1 ← single rows
  .ok (rows.map fun r => ⟨r.nrWorkers, r.durations, [], divide (t1.durations.map fun x => 100 * x) r.durations⟩)

end Lue.Scalability
