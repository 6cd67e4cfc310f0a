import Verif.Outcome

/-!
# Scheduling of the components of a signal flow

Models `src/librrl/scheduling_graph.{hpp,cpp}` and the two boost algorithms it uses, `depth_first_visit` and
`topological_sort` (a depth-first search over all vertices that throws `not_a_dag`, which is a
`std::invalid_argument`, at the first back edge and outputs each vertex when it is finished).

Components are identified by their addresses (natural numbers). A component occurs only once in the component tree, so a
vertex of the graph is identified with its `ProcessingNode`.
-/

namespace Visr.Schedule
open Visr

/-- The component tree (`impl::ComponentImplementation`, `impl::CompositeComponentImplementation`): an atomic component
or a composite with its children. The natural number is the address of the component. -/
inductive Comp where
  | atom (addr : Nat)
  | composite (addr : Nat) (children : List Comp)

/-- Address of a component. -/
def Comp.addr : Comp → Nat
  | .atom a => a
  | .composite a _ => a

mutual
/-- `collectAllComponents()` (`scheduling_graph.cpp:50-67`): the atomic components in the order of their insertion. -/
def Comp.atoms : Comp → List Nat
  | .atom a => [a]
  | .composite _ cs => atomsOfList cs
/-- The loop over the children (`scheduling_graph.cpp:56-60`). -/
def atomsOfList : List Comp → List Nat
  | [] => []
  | c :: cs => c.atoms ++ atomsOfList cs
end

/-- The component a port belongs to: its address and `isComposite()`. -/
structure Owner where
  addr : Nat
  composite : Bool
  deriving DecidableEq

/-- The connections after placeholder resolution, by the owners of their ports. Audio connections are pairs (sender,
receiver), parameter connections are pairs (receiver, sender). -/
structure Conns where
  audio : List (Owner × Owner)
  param : List (Owner × Owner)

/-- `ProcessingNode` with its `NodeType` (`scheduling_graph.hpp:70-160`). -/
inductive Node where
  | source
  | sink
  | proc (addr : Nat)
  deriving DecidableEq

/-- Insertion into a `std::set` of pointers, ordered by address. -/
def setInsert (x : Nat) : List Nat → List Nat
  | [] => [x]
  | y :: ys => if x < y then x :: y :: ys else if x = y then y :: ys else y :: setInsert x ys

/-- The elements of a `std::set` filled from a list. -/
def toSet (l : List Nat) : List Nat := l.foldl (fun s x => setInsert x s) []

/-- `predecessors` of an atom (`scheduling_graph.cpp:110-150`). -/
def predecessors (c : Conns) (atom : Nat) : List Nat :=
  toSet ((c.audio.filterMap fun k => if k.1.composite then none else if k.2.addr = atom then some k.1.addr else none)
    ++ (c.param.filterMap fun k => if k.2.composite then none else if k.1.addr = atom then some k.2.addr else none))

/-- `successors` of an atom (`scheduling_graph.cpp:110-150`). -/
def successors (c : Conns) (atom : Nat) : List Nat :=
  toSet ((c.audio.filterMap fun k => if k.1.composite then none else if k.1.addr = atom then some k.2.addr else none)
    ++ (c.param.filterMap fun k => if k.2.composite then none else if k.2.addr = atom then some k.1.addr else none))

/-- The edges into a vertex from its predecessors (`scheduling_graph.cpp:159-172`). A predecessor without vertex only
constructs an exception object; the following dereferencing of the end iterator is undefined. -/
def predEdges (atoms : List Nat) (v : Node) : List Nat → Outcome (List (Node × Node))
  | [] => .ok []
  | p :: ps =>
    if p ∈ atoms then
      match predEdges atoms v ps with
      | .ok es => .ok ((.proc p, v) :: es)
      | .throw e => .throw e
      | .ub => .ub
    else .ub

/-- One iteration of the loop over the vertices in `initialise()` (`scheduling_graph.cpp:97-182`). `atom` is the
component of the vertex; for the sink this is the top-level flow. -/
def vertexEdges (c : Conns) (atoms : List Nat) (v : Node) (atom : Nat) : Outcome (List (Node × Node)) :=
  let preds := predecessors c atom
  match if preds.isEmpty then .ok [(.source, v)] else predEdges atoms v preds with
  | .ok es => .ok (if (successors c atom).isEmpty ∧ v ≠ .sink then es ++ [(v, .sink)] else es)
  | .throw e => .throw e
  | .ub => .ub

/-- The loop over the vertices in the order of `mVertexLookup` (`scheduling_graph.cpp:96-183`). -/
def edgesLoop (c : Conns) (atoms : List Nat) : List (Node × Nat) → Outcome (List (Node × Node))
  | [] => .ok []
  | (v, a) :: vs =>
    match vertexEdges c atoms v a with
    | .ok es =>
      match edgesLoop c atoms vs with
      | .ok es' => .ok (es ++ es')
      | .throw e => .throw e
      | .ub => .ub
    | .throw e => .throw e
    | .ub => .ub

/-- The dependency graph `mDependencyGraph`: its vertices in the order of their descriptors, and its edges in the order
of insertion. -/
structure Graph where
  verts : List Node
  edges : List (Node × Node)

/-- `initialise()` (`scheduling_graph.cpp:72-184`). `mVertexLookup` is a `std::map`, so the loop runs over the vertices
in the order source, sink, atoms by address. -/
def initialise (flow : Comp) (c : Conns) : Outcome Graph :=
  let atoms := flow.atoms
  match edgesLoop c atoms ((.sink, flow.addr) :: (toSet atoms).map fun a => (.proc a, a)) with
  | .ok es => .ok ⟨.source :: .sink :: atoms.map .proc, es⟩
  | .throw e => .throw e
  | .ub => .ub

/-- Vertex colours of the boost search algorithms. -/
inductive Color where
  | white | gray | black
  deriving DecidableEq

/-- State of a depth-first search: colours, finished vertices (last finished first), back edges. -/
structure Dfs where
  color : Node → Color
  out : List Node
  back : List (Node × Node)

/-- Out-edges of a vertex in the order of their insertion. -/
def Graph.adj (g : Graph) (v : Node) : List Node := g.edges.filterMap fun e => if e.1 = v then some e.2 else none

/-- Assign a colour to a vertex. -/
def Dfs.paint (s : Dfs) (v : Node) (k : Color) : Dfs := { s with color := fun x => if x = v then k else s.color x }

/-- The loop over the out-edges of the vertex `v` in `boost::depth_first_visit`: a white target is visited, an edge to a
gray target is a back edge, other targets are skipped. -/
def outLoop (visit : Node → Dfs → Option Dfs) (v : Node) : List Node → Dfs → Option Dfs
  | [], s => some s
  | w :: ws, s =>
    match s.color w with
    | .white =>
      match visit w s with
      | some s' => outLoop visit v ws s'
      | none => none
    | .gray => outLoop visit v ws { s with back := (v, w) :: s.back }
    | .black => outLoop visit v ws s

/-- `boost::depth_first_visit`: paint the vertex gray, follow its out-edges, paint it black and report it as finished.
The first argument bounds the depth of the recursion; `none` means that the bound is exceeded (shown not to happen in
`sequentialSchedule`). -/
def visit (g : Graph) : Nat → Node → Dfs → Option Dfs
  | 0, _, _ => none
  | n + 1, v, s =>
    match outLoop (visit g n) v (g.adj v) (s.paint v .gray) with
    | some s' => some { s'.paint v .black with out := v :: s'.out }
    | none => none

/-- All vertices white, nothing finished. -/
def Dfs.start : Dfs := ⟨fun _ => .white, [], []⟩

/-- `boost::depth_first_search`: visit the vertices that are still white in the order of their descriptors. -/
def searchLoop (g : Graph) (fuel : Nat) : List Node → Dfs → Option Dfs
  | [], s => some s
  | v :: vs, s =>
    match s.color v with
    | .white =>
      match visit g fuel v s with
      | some s' => searchLoop g fuel vs s'
      | none => none
    | _ => searchLoop g fuel vs s

/-- `checkAcyclicGraph()` (`scheduling_graph.cpp:208-246`): a search from the source vertex only. -/
def checkAcyclicGraph (g : Graph) : Option Bool :=
  match visit g g.verts.length .source .start with
  | some s => some s.back.isEmpty
  | none => none

/-- The atoms of a list of nodes (`scheduling_graph.cpp:264-273`). -/
def processors : List Node → List Nat
  | [] => []
  | .proc a :: ns => a :: processors ns
  | _ :: ns => processors ns

/-- `sequentialSchedule()` (`scheduling_graph.cpp:248-276`). `topological_sort` throws at the first back edge; here the
search is completed and the back edges are looked at afterwards, with the same outcome. `none` (recursion deeper than the
number of vertices) is mapped to `ub`. -/
def sequentialSchedule (g : Graph) (lookupSize : Nat) : Outcome (List Nat) :=
  match checkAcyclicGraph g with
  | none => .ub
  | some false => .throw .invalidArgument
  | some true =>
    match searchLoop g g.verts.length g.verts .start with
    | none => .ub
    | some s =>
      if s.back ≠ [] then .throw .invalidArgument
      else if s.out.length ≠ lookupSize then .throw .logicError
      else .ok (processors s.out)

/-- Construction of the graph from a composite flow and its connections, followed by the computation of the schedule
(`audio_signal_flow.cpp:594-597`). The size of `mVertexLookup` is the number of different nodes. -/
def schedule (flow : Comp) (c : Conns) : Outcome (List Nat) :=
  match initialise flow c with
  | .ok g => sequentialSchedule g ((toSet flow.atoms).length + 2)
  | .throw e => .throw e
  | .ub => .ub

/-- `AudioSignalFlow::initialiseSchedule()` (`audio_signal_flow.cpp:577-601`). -/
def initialiseSchedule (flow : Comp) (c : Conns) : Outcome (List Nat) :=
  match flow with
  | .atom a => .ok [a]
  | .composite a cs => schedule (.composite a cs) c

end Visr.Schedule
