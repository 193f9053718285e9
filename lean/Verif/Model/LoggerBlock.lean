/- Model of a `with` block of a `MicroscopeAgentLogger` (microscope_agent.py:176-188). -/
import Verif.Model.MicroscopeAgent

namespace PD
variable {K G Img F α : Type} [Field K] [LinearOrder K] [FloorRing K]

/-- The body of a block: the calls in order up to the first that raises; `interrupt` is an exception of the
caller's own after the last of them, such as `KeyboardInterrupt`. -/
noncomputable def Logger.block (cfg : MicroCfg K G Img F α) (interrupt : Option Err) :
    List (AgentOp K G Img) → Logger K G Img α → Option Err × Logger K G Img α
  | [], l => (interrupt, l)
  | op :: ops, l =>
    match Logger.exec cfg l op with
    | (.raised e, l') => (some e, l')
    | (_, l') => Logger.block cfg interrupt ops l'

/-- microscope_agent.py:179-188 `__exit__`: nothing is returned, so exceptions are passed on. -/
noncomputable def Logger.exit (raised : Option Err) (l : Logger K G Img α) : Logger K G Img α :=
  match raised with
  | none => l.flush
  | some _ => l

/-- microscope_agent.py:176-188: `with MicroscopeAgentLogger(agent, logdir=...) as agent:` around the calls.
The exception that leaves the block, and the logger with its files. -/
noncomputable def withLogger (cfg : MicroCfg K G Img F α) (a : Micro K G α) (ops : List (AgentOp K G Img))
    (interrupt : Option Err) : Option Err × Logger K G Img α :=
  let (e, l) := Logger.block cfg interrupt ops (Logger.fresh a)
  (e, Logger.exit e l)

end PD
