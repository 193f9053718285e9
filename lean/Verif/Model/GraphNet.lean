/- Model of the graph network for alignment (graph_alignment/model.py) with the neighbour lists of jax_md and the
message passing of jraph.  What the layers compute is left open. -/
import Verif.Model.DataPoints
import Mathlib.Algebra.Module.Defs

namespace PD

/-- A row of `positions` (graph_alignment/train.py:408). -/
@[ext]
structure V3 where
  x : ℝ
  y : ℝ
  z : ℝ

/-- Point `n` of time step `t`.  graph_alignment/train.py:193-199 and model.py:291-293 put the points of all time
steps into one array and model.py:189-194 takes it apart again, so row `t * N + n` is the pair `(t, n)`. -/
abbrev Point := ℕ × ℕ

/-- The rows in order. -/
def points (T N : ℕ) : List Point := (List.range T).flatMap (fun t => (List.range N).map (fun n => (t, n)))

/-- One coordinate of the displacement function of `space.periodic`: `mod(d + side / 2, side) - side / 2`. -/
noncomputable def wrap (side d : ℝ) : ℝ := pyMod (d + side / 2) side - side / 2

/-- `space.periodic(side)`, the displacement function (graph_alignment/train.py:299-304). -/
noncomputable def displacement (side : ℝ) (a b : V3) : V3 :=
  ⟨wrap side (a.x - b.x), wrap side (a.y - b.y), wrap side (a.z - b.z)⟩

/-- `space.square_distance` -/
def V3.normSq (v : V3) : ℝ := v.x * v.x + v.y * v.y + v.z * v.z

/-- An edge of the graph by its sender and its receiver. -/
abbrev Edge := Point × Point

/-- The configuration of graph_alignment/train.py:102-113 as far as it matters here. -/
structure GraphCfg where
  side : ℝ
  cutoff : ℝ
  capacity : ℕ

/-- The pairs a neighbour list of jax_md holds in the sparse format without a cell list, with a point being its own
neighbour (`mask_self=False`, model.py:352-361): all pairs nearer than the cutoff, ordered by senders. -/
noncomputable def closePairs (cfg : GraphCfg) (T N : ℕ) (ps : Point → V3) : List Edge :=
  ((points T N).product (points T N)).filter
    (fun e => decide ((displacement cfg.side (ps e.1) (ps e.2)).normSq < cfg.cutoff ^ 2))

/-- Whether `update` of a neighbour list looks for the pairs again: if some point is farther from where it was than
half of `dr_threshold`, which is 0 (graph_alignment/train.py:312).  `strict` says whether "farther" is meant
strictly.  In jax_md it is (`jnp.any(d(position, nbrs.reference_position) > threshold_sq)`); the theorems are for
both values. -/
noncomputable def needsUpdate (strict : Bool) (cfg : GraphCfg) (T N : ℕ) (ps reference : Point → V3) : Bool :=
  (points T N).any (fun p =>
    let d := (displacement cfg.side (ps p) (reference p)).normSq
    if strict then decide (0 < d) else decide (0 ≤ d))

/-- model.py:205-235 `create_sparse_neighbor_list` with these positions for reference, then `update` with the same
positions (graph_alignment/train.py:183-189).  The list begins with `capacity` pairs of the first point with itself.
Looking for the pairs again keeps the first `capacity` of them; that there were more is noted in a field nobody
reads.  Entries beyond the pairs found join the additional node of model.py:331-334 with itself, and are a graph of
their own for jraph (`partition.to_jraph`), so they are left out. -/
noncomputable def graphEdges (strict : Bool) (cfg : GraphCfg) (T N : ℕ) (ps : Point → V3) : List Edge :=
  if needsUpdate strict cfg T N ps ps then (closePairs cfg T N ps).take cfg.capacity
  else List.replicate cfg.capacity ((0, 0), (0, 0))

section
variable {F V : Type}

/-- What edges, nodes and the graph carry.  Edges with the same ends carry the same, since nothing else enters. -/
structure Latents (V : Type) where
  edge : Edge → V
  node : Point → V
  glob : V

/-- The networks `model_fn` of one recurrence (model.py:93-98, 105-110), each applied to the concatenation of its
arguments, which are themselves concatenations of what the last recurrence and the encoder gave (model.py:116-117).
Normalisation (`GroupNorm` over the last axis) is part of them. -/
structure Propagation (V : Type) where
  edge : V × V → V × V → V × V → V × V → V
  node : V × V → V → V → V × V → V
  glob : V → V → V × V → V

/-- The networks of model.py:59-177. -/
structure GraphNet (F V : Type) where
  encodeEdge : V3 → V
  encodeNode : F → V
  encodeGlob : V
  layers : List (Propagation V)
  decodeGlob : V → ℕ → V2 ℝ
  decodeLocal : V → V2 ℝ
  decodePool : V → V2 ℝ

/-- model.py:100-104 and 114: the encoder.  Edges carry the displacement between their ends (model.py:315-317, with
receivers first), nodes their features and the graph a zero (model.py:297). -/
noncomputable def GraphNet.encode (net : GraphNet F V) (cfg : GraphCfg) (ps : Point → V3) (fs : Point → F) :
    Latents V where
  edge e := net.encodeEdge (displacement cfg.side (ps e.2) (ps e.1))
  node p := net.encodeNode (fs p)
  glob := net.encodeGlob

variable [AddCommMonoid V]

/-- `jraph.GraphNetwork`, which sums up what is sent and received: first the edges, then the nodes with the new
edges, then the graph with both (model.py:105-110, 116-118). -/
def Propagation.apply (l : Propagation V) (T N : ℕ) (edges : List Edge) (enc out : Latents V) : Latents V :=
  let g := (out.glob, enc.glob)
  let edge := fun e : Edge => l.edge (out.edge e, enc.edge e) (out.node e.1, enc.node e.1) (out.node e.2, enc.node e.2) g
  let node := fun p => l.node (out.node p, enc.node p)
    ((edges.filter (fun e => decide (e.1 = p))).map edge).sum
    ((edges.filter (fun e => decide (e.2 = p))).map edge).sum g
  ⟨edge, node, l.glob ((points T N).map node).sum (edges.map edge).sum g⟩

/-- model.py:113-120 `GraphNetEncoder.__call__` -/
noncomputable def GraphNet.latents (net : GraphNet F V) (cfg : GraphCfg) (T N : ℕ) (edges : List Edge)
    (ps : Point → V3) (fs : Point → F) : Latents V :=
  let enc := net.encode cfg ps fs
  net.layers.foldl (fun out l => l.apply T N edges enc out) enc

/-- model.py:179-202 `AlignmentGraphNetwork.__call__`: the drift of each time step and the displacement of each
point. -/
structure GraphPrediction where
  drift : ℕ → V2 ℝ
  displacement : ℕ → ℕ → V2 ℝ

/-- graph_alignment/train.py:183-190 with model.py:336-349: the predictions for one example of `T` time steps with `N`
points each. -/
noncomputable def GraphNet.predict (net : GraphNet F V) (strict : Bool) (cfg : GraphCfg) (T N : ℕ) (ps : Point → V3)
    (fs : Point → F) : GraphPrediction :=
  let out := net.latents cfg T N (graphEdges strict cfg T N ps) ps fs
  { drift := fun t => net.decodeGlob out.glob t +
      ⟨((List.range N).map (fun n => (net.decodePool (out.node (t, n))).x)).sum / N,
       ((List.range N).map (fun n => (net.decodePool (out.node (t, n))).y)).sum / N⟩
    displacement := fun t n => net.decodeLocal (out.node (t, n)) }

end
end PD
