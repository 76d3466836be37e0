import Verif.Model.DPFC

/-!
# Onset and duration of synchronisation

The analysis of stored runs of coupled oscillators in
`notebooks/Kuramoto_synchronisation/analyse_systematic_homogeneous_Kuramoto_2N.py` (A2.py) and
`notebooks/Kuramoto_synchronisation/analyse_systematic_inhomogeneous_Kuramoto_6N.py` (A6.py): from the order parameter
of one repetition at all times, the time of onset of synchronisation and the duration of the synchronised episodes are
computed. The same code is used for controlled and for uncontrolled runs. The two files differ in one statement, the
argument `trim` here. Left out: reading the stored runs, plots.
-/

namespace DPFC
section
variable {K : Type} [Add K] [Sub K] [Mul K] [Div K] [Neg K] [NumOps K]

/-- What is stored for one repetition: `onset_cont`, `cont_synched_durations_m`, `_std`, `_max`, `_sum`
(A2.py:513-524; A6.py:123-134). -/
structure Onset (K : Type) where
  onset : K
  durM : K
  durStd : K
  durMax : K
  durSum : K

/-- `synch_or_not = R[1:-2] >= threshold` (A2.py:538, 575; A6.py:147, 186). -/
def synchOrNot (thr : K) (R : List K) : List Bool :=
  (R.dropLast.dropLast.drop 1).map fun r => NumOps.leB thr r

/-- `diffpos2`: a zero followed by `np.diff(synch_or_not.astype(int))` (A2.py:543-546, 579-582; A6.py:152-155, 190-193).
-/
def diffPos (s : List Bool) : List Int := 0 :: List.zipWith (fun a b => b.toInt - a.toInt) s s.tail

/-- `np.argwhere(l == v)`, the only column (A2.py:547-548, 583-584; A6.py:156-157, 194-195). -/
def argWhere (l : List Int) (v : Int) : List Nat := (List.range l.length).filter fun i => l[i]? == some v

/-- `stops[:, 0] - starts[:stops.size, 0]` (A2.py:560, 597; A6.py:171, 210) with the rules of broadcasting. -/
def durations (stops starts : List Nat) : Except PyErr (List Int) :=
  let b := starts.take stops.length
  if stops.length = b.length then .ok (List.zipWith (fun (e a : Nat) => (e : Int) - a) stops b)
  else match stops, b with
    | _, [a] => .ok (stops.map fun (e : Nat) => (e : Int) - a)
    | [e], _ => .ok (b.map fun (a : Nat) => (e : Int) - a)
    | _, _ => .error .valueError

/-- `timegrid[i]` for a natural number `i` (A2.py:552, 554, 565; A6.py:161, 163, 176). -/
def tgAt (tg : List K) (i : Nat) : Except PyErr K :=
  match tg[i]? with
  | some t => .ok t
  | none => .error .indexError

/-- The branch with both starts and stops (A2.py:560-570, 597-608; A6.py:169-181, 208-221). With `trim` (A6.py:169-170,
208-209) a stop before the first start is dropped first. `min_duri` is `minDur`. -/
def onsetEpisodes (trim : Bool) (minDur : Nat) (tg : List K) (s : List Bool) (starts stops : List Nat) :
    Except PyErr (Option (Onset K)) := do
  let stops := if trim && decide (stops.headD 0 < starts.headD 0) then stops.drop 1 else stops
  let dur ← durations stops starts
  match (List.range dur.length).filter fun i => decide ((minDur : Int) ≤ dur.getD i 0) with
  | [] => .ok none
  | j :: _ =>
    match starts[j]? with
    | none => .error .indexError
    | some a => do
      let on ← tgAt tg a
      .ok (some {
        onset := on
        durM := mean fun i : Fin dur.length => lit dur[i] 1
        durStd := npStd fun i : Fin dur.length => lit dur[i] 1
        durMax := lit (dur.max?.getD 0) 1
        durSum := lit ((s.drop a).count true) 1 / lit ((tg.length : Int) - 1 - a) 1 })

/-- The analysis of one repetition with order parameters `R` at the times `tg` (A2.py:537-570, 574-608; A6.py:146-181,
185-221). `none`: the arrays keep their NaN and the repetition is not counted. -/
def onsetRun (trim : Bool) (thr : K) (minDur : Nat) (tg R : List K) : Except PyErr (Option (Onset K)) :=
  let s := synchOrNot thr R
  if s.count true = 0 then .ok none
  else
    let starts := argWhere (diffPos s) 1
    let stops := argWhere (diffPos s) (-1)
    match starts, stops with
    | [], _ => .ok none
    | a :: _, [] => do
      let on ← tgAt tg a
      let last ← pyGet tg (-1)
      .ok (some {
        onset := on
        durM := last - on
        durStd := lit 0 1
        durMax := last - on
        durSum := lit (s.count true) 1 / lit ((tg.length : Int) - 1 - a) 1 })
    | _ :: _, _ :: _ => onsetEpisodes trim minDur tg s starts stops

/-- `counter_cont` of one setting: the number of repetitions `Rs` for which an onset was stored (A2.py:526-527, 535,
553, 566; A6.py:136-137, 145, 162, 177). An exception ends the script. -/
def onsetCount (trim : Bool) (thr : K) (minDur : Nat) (tg : List K) : List (List K) → Except PyErr Nat
  | [] => .ok 0
  | R :: Rs => do
    let o ← onsetRun trim thr minDur tg R
    let c ← onsetCount trim thr minDur tg Rs
    .ok (c + if o.isSome then 1 else 0)

end
end DPFC
