import Verif.Scalability.Model

/-!
# Specification of scalability experiments
-/
namespace Lue.Scalability

/-- The description of a pool asks for this number of workers. -/
def Wanted (j : PoolJson) (n : Nat) : Prop :=
  match j.multiplier, j.incrementor with
  | some m, _ => ∃ a b k, j.minSize = some a ∧ j.maxSize = some b ∧ n = a * m ^ k ∧ n ≤ b
  | none, some i => ∃ a b k, j.minSize = some a ∧ j.maxSize = some b ∧ n = a + k * i ∧ n ≤ b
  | none, none => j.size = some n

/-- The description of a pool is usable. -/
def Usable (j : PoolJson) : Prop :=
  match j.multiplier, j.incrementor with
  | some m, _ => 1 < m ∧ ∃ a b, j.minSize = some a ∧ j.maxSize = some b ∧ 0 < a ∧ a ≤ b
  | none, some i => 1 ≤ i ∧ ∃ a b, j.minSize = some a ∧ j.maxSize = some b ∧ 0 < a ∧ a ≤ b
  | none, none => ∃ n, j.size = some n ∧ 1 ≤ n

/-- The numbers of workers a pool consists of. -/
def Sizes (p : WorkerRange) (l : List Nat) : Prop :=
  p.nrPermutations = .ok l.length ∧
    ∀ idx, p.permutationSize idx = (match l[idx]? with | some n => .ok n | none => .error .assertion)

/-- There is something to run programs on. -/
def Sane (c : Cluster) : Prop := 1 ≤ c.nrClusterNodes ∧ 1 ≤ c.nrNumaNodes ∧ 1 ≤ c.nrCoresPerNumaNode

/-- A run does not use more than what is available. -/
def Fits (c : Cluster) (b : Benchmark) (r : Run) : Prop :=
  1 ≤ r.nodes ∧ 1 ≤ r.tasks ∧ 1 ≤ r.threads ∧
  -- The nodes exist
  r.nodes ≤ c.nrClusterNodes ∧
  -- Not more threads than cores in these nodes
  r.tasks * r.threads ≤ r.nodes * c.nrCores ∧
  -- If a process per NUMA node is started, they all fit in a NUMA node of their own
  (b.localityPer = .numaNode → r.tasks ≤ r.nodes * c.nrNumaNodes ∧ r.threads ≤ c.nrCoresPerNumaNode)

/-- The number of workers of the type used in a run. -/
def workersOf (c : Cluster) (t : WorkerType) (r : Run) : Nat :=
  match t with
  | .thread => r.tasks * r.threads
  -- All cores of a NUMA node are used
  | .numaNode => r.tasks * (r.threads / c.nrCoresPerNumaNode)
  -- All cores of all NUMA nodes of a cluster node are used
  | .clusterNode => r.tasks * r.threads / c.nrCores

/-- The size of the array is what is expected given the kind of the experiment. -/
def SizeOk (e : Experiment) (r : Run) : Prop :=
  match e.kind with
  | .strong => r.arrayShape = e.arrayShape
  -- Within 0.1%
  | .weak => 1000 * (nrElements r.arrayShape : Rat) < 1001 * (r.nrWorkers * nrElements e.arrayShape) ∧
      999 * (r.nrWorkers * nrElements e.arrayShape : Rat) < 1000 * nrElements r.arrayShape

/-- The program stores the number of workers passed to it in the file named after this number. -/
def Honest (files : Nat → Option Result) : Prop := ∀ n r, files n = some r → r.nrWorkers = n

end Lue.Scalability
