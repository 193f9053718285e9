/- Vocabulary for the history of an aligner. -/
import Verif.Model.Aligners

namespace PD.Spec
open PD

/-- The last `n` entries, in order. -/
def lastN {α : Type} (n : ℕ) (l : List α) : List α := l.drop (l.length - n)

/-- `x` is at the index `i`: counted from the front, or from the back if the index is negative, with -1 the last. -/
def AtIndex {α : Type} (xs : List α) (i : ℤ) (x : α) : Prop :=
  (0 ≤ i ∧ xs[i.toNat]? = some x) ∨ (i < 0 ∧ xs.reverse[(-i - 1).toNat]? = some x)

/-- The aligner for post-processing: one frame of history, atoms merged within half a bond by cliques, and merged
positions are not accumulated. -/
def postAligner {K : Type} [Field K] : FilterCfg K :=
  { historyLength := 1, mergeCutoff := 142 / 100 / 2, accumulateMerged := false, cliqueMerging := true }

section
variable {K C : Type} [Field K] [LinearOrder K]

/-- `FilterLog cfg ops cf s log`: the filtering aligner got into the state `s` by calls, with well-formed
grids, and resets; some calls may have raised.  `log` lists the calls since the last reset that returned:
the grid given, the grid returned and the drift returned. -/
inductive FilterLog (cfg : FilterCfg K) (ops : FilterOps K C) (cf : CliqueFinder) :
    FilterState K C → List (Grid K × Grid K × V2 K) → Prop
  | start : FilterLog cfg ops cf FilterState.fresh []
  | reset {s log} (before : FilterLog cfg ops cf s log) : FilterLog cfg ops cf FilterState.fresh []
  | returned {s log g m d s'} (before : FilterLog cfg ops cf s log) (wf : g.WF)
      (call : FilterState.call cfg ops cf g s = .ok (m, d) s') :
      FilterLog cfg ops cf s' (log ++ [(g, m, d)])
  | raised {s log g e s'} (before : FilterLog cfg ops cf s log) (wf : g.WF)
      (call : FilterState.call cfg ops cf g s = .error e s') : FilterLog cfg ops cf s' log

/-- The frames that the calls of a log contributed: the positions given, moved by the drift found (the
returned offset is the opposite). -/
def framesOf (log : List (Grid K × Grid K × V2 K)) : List (List (V2 K)) :=
  log.map (fun c => c.1.positions.map (fun p => p - c.2.2))

end

section
variable {K C P Img Probs : Type} [Field K] [LinearOrder K] [FloorRing K]

/-- `ImageLog ops hybrid n s log`: the image aligner was last reset with history length `n` (5 at its
first use), and got into the state `s` by the calls since, of which `log` lists those that returned: the
prepared image and the field of view. -/
inductive ImageLog (ops : ImageOps K P Img Probs) (hybrid : Option (FilterOps K C × CliqueFinder)) :
    ℤ → ImageState K C P → List (List (List P) × Fov K) → Prop
  | reset {s0 s n} (call : ImageState.reset ops.black n s0 = .ok () s) : ImageLog ops hybrid n s []
  | returned {n s log image fov grid t r s' img} (before : ImageLog ops hybrid n s log)
      (prepared : ops.prepare image = .ok img)
      (call : ImageState.call ops hybrid image fov grid t s = .ok r s') :
      ImageLog ops hybrid n s' (log ++ [(img, fov)])
  | raised {n s log image fov grid t e s'} (before : ImageLog ops hybrid n s log)
      (call : ImageState.call ops hybrid image fov grid t s = .error e s') : ImageLog ops hybrid n s' log

end
end PD.Spec
