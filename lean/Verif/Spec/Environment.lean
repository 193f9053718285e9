/- Specification vocabulary for environments: the dm_env episode protocol. -/
import Verif.Spec.Adapters
import Verif.Model.Environment

namespace PD.Spec
variable {A F : Type}

/-- A history of calls with what each returned or raised. -/
abbrev Trace (A F : Type) := List (EnvCall A × Except Err (TimeStep F))

/-- The protocol `FIRST (MID)* LAST FIRST …`.  The flag says whether an episode has to be started
(there was none yet, the last one has ended, or the last attempt to start one raised).  `reset`
returns FIRST and so does a step that has to start an episode; any other step returns MID, or LAST
and ends the episode.  A step that raises within an episode does not end it. -/
def Follows : Bool → Trace A F → Prop
  | _, [] => True
  | _, (.reset, .ok t) :: r => t.stepType = .first ∧ Follows false r
  | _, (.reset, .error _) :: r => Follows true r
  | true, (.step _, .ok t) :: r => t.stepType = .first ∧ Follows false r
  | true, (.step _, .error _) :: r => Follows true r
  | false, (.step _, .ok t) :: r =>
    (t.stepType = .mid ∧ Follows false r) ∨ (t.stepType = .last ∧ Follows true r)
  | false, (.step _, .error _) :: r => Follows false r

/-- Whether an episode has to be started after a history. -/
def mustStart : Bool → Trace A F → Bool
  | b, [] => b
  | _, (_, .ok t) :: r => mustStart (t.stepType = .last) r
  | _, (.reset, .error _) :: r => mustStart true r
  | b, (.step _, .error _) :: r => mustStart b r

/-- No call that had to start an episode raised. -/
def StartsReturn : Bool → Trace A F → Prop
  | _, [] => True
  | _, (_, .ok t) :: r => StartsReturn (t.stepType = .last) r
  | _, (.reset, .error _) :: _ => False
  | true, (.step _, .error _) :: _ => False
  | false, (.step _, .error _) :: r => StartsReturn false r

/-- The rewards of the calls that returned. -/
def rewards (tr : Trace A F) : List ℝ :=
  tr.filterMap (fun c => match c.2 with | .ok t => some t.reward | .error _ => none)

/-- The step types of the calls that returned. -/
def stepTypes (tr : Trace A F) : List StepType :=
  tr.filterMap (fun c => match c.2 with | .ok t => some t.stepType | .error _ => none)

/-- With `k` steps since FIRST, no step is beyond the `n`-th, and the `n`-th is LAST. -/
def WithinLimit (n : ℤ) : ℤ → Trace A F → Prop
  | _, [] => True
  | k, (_, .ok t) :: r =>
    if t.stepType = .first then WithinLimit n 0 r
    else k + 1 ≤ n ∧ (k + 1 = n → t.stepType = .last) ∧ WithinLimit n (k + 1) r
  | k, (_, .error _) :: r => WithinLimit n k r

/-- An environment in the given state obeys the protocol, whatever is called, as long as it can
start episodes. -/
def Obeys {σ : Type} (I : EnvLike σ A F) (b : Bool) (s : σ) : Prop :=
  ∀ cs, StartsReturn b (I.run s cs).1 → Follows b (I.run s cs).1

/-- The outer history is the inner one under a step limit `l`, with `k` steps since FIRST so far:
the same results and errors, except that the `l`-th step after FIRST is turned into LAST, keeping
its reward, discount and observation. -/
def Limited (l : ℤ) : ℤ → Trace A F → Trace A F → Prop
  | _, [], [] => True
  | k, (_, .error e) :: r, (_, .error e') :: r' => e = e' ∧ Limited l k r r'
  | k, (_, .ok t) :: r, (_, .ok t') :: r' =>
    if t'.stepType = .first then t = t' ∧ Limited l 0 r r'
    else t = (if k + 1 = l then { t' with stepType := .last } else t') ∧ Limited l (k + 1) r r'
  | _, _, _ => False

/-- `inner` makes the calls of `outer` in the same order, except that a step of `outer` may have
been replaced by a reset. -/
def SameCalls (outer inner : List (EnvCall A)) : Prop :=
  List.Forall₂ (fun o i => i = o ∨ i = .reset) outer inner

end PD.Spec
