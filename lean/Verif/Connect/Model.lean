import Verif.Basic

/-!
# Which nodes are merged when meshes are connected

`libs/MeshKernel/src/ConnectMeshes.cpp`, called from `mkernel_mesh2d_connect_meshes`
(`MeshKernel.cpp:3662-3722`).  Modelled are the tables of close boundary edges, the choice of nodes to
merge, of nodes that hang and of edges that go, and the order of the merges.  The geometric test of
two edges, the chain of opposite edges and the nodes and edges that are put in for hanging nodes are
parameters or left out.
-/
namespace Verif.Connect

/-- `MergeIndicator` (`ConnectMeshes.hpp:69-74`). -/
inductive Ind where
  | initial
  | doMerge
  | doNotMerge
  deriving DecidableEq, Repr

/-- The mesh as far as it is used. -/
structure Input where
  /-- the edges with the numbers of their nodes -/
  edges : List (Nat × Nat)
  /-- `edgesOnDomainBoundary`: the boundary edges of quadrilaterals (`ConnectMeshes.cpp:102-120`) -/
  boundary : List Nat
  /-- `AreEdgesAdjacent` (`ConnectMeshes.cpp:36-100`): `none` for edges that are not close and nearly
  parallel; otherwise the nodes of the second edge close to the start and end of the first, or
  `missing` -/
  adj : Nat → Nat → Option (Nat × Nat)
  /-- the edges opposite to a boundary edge: in its own quadrilateral, in the next one and so on -/
  across : Nat → List Nat

/-- The boundary edge with an index. -/
def Input.bedge (p : Input) (i : Nat) : Nat := p.boundary.getD i missing

/-- The entries of one edge in `GatherHangingNodeIds` (`ConnectMeshes.cpp:122-166`): the indices of
the close edges, with what the test reports. -/
def Input.near (p : Input) (i : Nat) : List (Nat × (Nat × Nat)) :=
  (List.range p.boundary.length).filterMap fun j =>
    if i = j then none else (p.adj (p.bedge i) (p.bedge j)).map fun r => (j, r)

/-- `edgeCount` (`ConnectMeshes.cpp:153`). -/
def Input.count (p : Input) (i : Nat) : Nat := (p.near i).length

/-- `startNode` and `endNode`: the last one that is not missing (`ConnectMeshes.cpp:155-163`). -/
def lastNode (l : List Nat) : Nat := l.foldl (fun a x => if x = missing then a else x) missing

/-- `startNode` of an entry. -/
def Input.startOf (p : Input) (i : Nat) : Nat := lastNode ((p.near i).map fun r => r.2.1)

/-- `endNode` of an entry. -/
def Input.endOf (p : Input) (i : Nat) : Nat := lastNode ((p.near i).map fun r => r.2.2)

/-- Writing behind the five places of `hangingNodes` (`ConnectMeshes.cpp:152`,
`ConnectMeshes.hpp:66`, `:77`) is undefined. -/
def Input.overrun (p : Input) : Bool :=
  (List.range p.boundary.length).any fun i => decide (5 < p.count i)

/-- What the loop in `Compute` changes. -/
structure St where
  /-- `mergeIndicator`; it has as many entries as there are edges (`ConnectMeshes.cpp:242`) -/
  ind : List Ind
  /-- the edges; a deleted one has missing nodes -/
  edges : List (Nat × Nat)
  /-- `adjacentEdgeIndicator` -/
  live : List Bool
  /-- `nodesToMerge` -/
  merges : List (Nat × Nat)
  /-- `hangingNodesOnEdge` of the edge at hand -/
  hanging : List Nat
  /-- all nodes that were found hanging (for the statements only) -/
  kept : List Nat
  /-- the edges that were taken away because another edge is close, in this order (for the statements
  only) -/
  gone : List Nat

/-- One half of `GatherNodesToMerge` (`ConnectMeshes.cpp:168-185`). -/
def propose (st : St) (n t : Nat) : Res St :=
  if t = missing then .ok st
  else (vget st.ind n).bind fun a =>
    if a = .initial then
      .ok { st with ind := st.ind.set n .doMerge, merges := st.merges ++ [(n, t)] }
    else .ok st

/-- One half of `GatherHangingNodes` (`ConnectMeshes.cpp:187-210`). -/
def hang (st : St) (s e n : Nat) : Res St :=
  (vget st.ind n).bind fun a =>
    if a = .initial ∧ n ≠ s ∧ n ≠ e then
      .ok { st with ind := st.ind.set n .doNotMerge, hanging := st.hanging ++ [n],
                    kept := st.kept ++ [n] }
    else .ok st

/-- A boundary edge is taken away if it and the close edge are both still there
(`ConnectMeshes.cpp:282-286`). -/
def takeAway (st : St) (b c : Nat) : Res St :=
  (vget st.live b).bind fun x => (vget st.live c).bind fun y =>
    if x = true ∧ y = true then
      .ok { st with live := st.live.set b false, edges := st.edges.set b (missing, missing),
                    gone := st.gone ++ [b] }
    else .ok st

/-- One close edge in the loop of `Compute` (`ConnectMeshes.cpp:266-288`). -/
def stepNear (p : Input) (i : Nat) (be : Nat × Nat) (j : Nat) (st : St) : Res St :=
  if p.count j ≤ p.count i then
    (propose st be.1 (p.startOf i)).bind fun st => (propose st be.2 (p.endOf i)).bind fun st =>
      (if p.count j < p.count i then
        (vget st.edges (p.bedge j)).bind fun ej =>
          (hang st (p.startOf i) (p.endOf i) ej.1).bind fun st =>
            hang st (p.startOf i) (p.endOf i) ej.2
        else .ok st).bind fun st =>
      takeAway st (p.bedge i) (p.bedge j)
  else .ok st

/-- The edges that `FreeHangingNodes` deletes (`ConnectMeshes.cpp:669-733`, `:423`, `:490`,
`:574`, `:615`, `:646`).  Up to five hanging nodes fit in the arrays; five are refused.  Without an
opposite edge the call fails. -/
def free (p : Input) (i : Nat) (st : St) : Res St :=
  match st.hanging.length with
  | 0 => .ok st
  | k + 1 =>
    if 4 < k then .ub
    else if p.across i = [] ∨ k = 4 then .throw
    else
      let del := if k = 0 then [] else if k = 3 then (p.across i).take 3 else (p.across i).take 1
      .ok { st with edges := del.foldl (fun l e => l.set e (missing, missing)) st.edges }

/-- A loop over a list that can fail. -/
def each {α σ : Type} (f : α → σ → Res σ) : List α → σ → Res σ
  | [], s => .ok s
  | a :: l, s => (f a s).bind fun s => each f l s

/-- One boundary edge in the loop of `Compute` (`ConnectMeshes.cpp:247-293`). -/
def stepEdge (p : Input) (i : Nat) (st : St) : Res St :=
  if p.count i = 0 then .ok st
  else
    (vget st.edges (p.bedge i)).bind fun be =>
      (each (stepNear p i be) ((p.near i).map Prod.fst) { st with hanging := [] }).bind fun st =>
        free p i st

/-- The tables before the loop (`ConnectMeshes.cpp:231-242`). -/
def start (p : Input) : St :=
  { ind := List.replicate p.edges.length .initial, edges := p.edges,
    live := List.replicate p.edges.length true, merges := [], hanging := [], kept := [], gone := [] }

/-- `MergeNodes` (`ConnectMeshes.cpp:300-318`): the merges that are done, in this order. -/
def mergeNodes : List (Nat × Nat) → List Ind → Res (List (Nat × Nat))
  | [], _ => .ok []
  | (f, s) :: l, ind =>
    (vget ind s).bind fun a =>
      if a = .doNotMerge then mergeNodes l ind
      else (mergeNodes l ((ind.set f .doNotMerge).set s .doNotMerge)).bind fun r => .ok ((f, s) :: r)

/-- What `Compute` (`ConnectMeshes.cpp:212-298`) decides: the tables at the end of the loop and the
merges done.  The fraction is assumed to be in range. -/
def compute (p : Input) : Res (St × List (Nat × Nat)) :=
  if p.overrun then .ub
  else (each (stepEdge p) (List.range p.boundary.length) (start p)).bind fun st =>
    (mergeNodes st.merges st.ind).bind fun done => .ok (st, done)

end Verif.Connect
