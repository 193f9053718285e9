/- The jump process of a silicon under the beam. -/
import Verif.Spec.Material
import Verif.Model.Material

namespace PD.Spec
open PD
variable {K G : Type} [Field K] [LinearOrder K] [FloorRing K]

/-- The sum of the rates towards the given successors. -/
def sumRates (ss : List (Successor K)) : K := (ss.map (·.rate)).sum

/-- `Jumps rng rate p dwell t g sheet evs g' sheet'`: with the beam held at `p` until time `dwell` (in
microseconds), the sheet `sheet` at time `t` and the generator in state `g`, exactly the jumps `evs`
(time and new sheet) happen, ending with the sheet `sheet'` and the generator in state `g'`.  The time to
the next jump is an exponential draw with mean one over the sum of the rates *of the current sheet*, cut
off at an hour; a jump at or before the end of the dwell time happens, and leads to a successor drawn with
probabilities proportional to the rates; a later one does not happen.  Without any rate nothing happens
for an hour. -/
inductive Jumps (rng : Rng K G) (rate : RateFunction K) (p : V2 K) (dwell : Timedelta) :
    Timedelta → G → Grid K → List (Timedelta × Grid K) → G → Grid K → Prop
  | over {t g sheet} (h : dwell ≤ t) : Jumps rng rate p dwell t g sheet [] g sheet
  | idle {t g sheet ss} (h : t < dwell) (hr : rate sheet p = .ok ss) (hne : ss ≠ [])
      (h0 : sumRates ss = 0) (hl : dwell < t + 3600000000) :
      Jumps rng rate p dwell t g sheet [] (rng.exponential 0 g).2 sheet
  | late {t g sheet ss x g1} (h : t < dwell) (hr : rate sheet p = .ok ss) (h0 : sumRates ss ≠ 0)
      (hx : rng.exponential (1 / sumRates ss) g = (x, g1))
      (hl : dwell < t + ofSeconds (min x 3600)) : Jumps rng rate p dwell t g sheet [] g1 sheet
  | jump {t g sheet ss x g1 i g2 y evs g' sheet'} (h : t < dwell) (hr : rate sheet p = .ok ss)
      (h0 : sumRates ss ≠ 0) (hx : rng.exponential (1 / sumRates ss) g = (x, g1))
      (hl : t + ofSeconds (min x 3600) ≤ dwell)
      (hi : rng.choiceP (ss.map (fun z => z.rate / sumRates ss)) g1 = (i, g2))
      (hy : ss[i]? = some y)
      (rest : Jumps rng rate p dwell (t + ofSeconds (min x 3600)) g2 y.grid evs g' sheet') :
      Jumps rng rate p dwell t g sheet ((t + ofSeconds (min x 3600), y.grid) :: evs) g' sheet'

end PD.Spec
