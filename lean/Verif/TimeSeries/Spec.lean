import Verif.TimeSeries.Model

/-! # Plain timestamps, order and closeness -/

namespace Verif.TimeSeries

/-- `s` is the text of the datetime `t` in one of the two usual forms, `YYYY-MM-DD` (midnight) or
`YYYY-MM-DDThh:mm:ssZ`. -/
def Plain (s : Stamp) (t : DateTime) : Prop :=
  Valid t ∧ t.us = 0 ∧ ((s = isoDate t ∧ t.sec = 0) ∨ s = isoformat t ++ ['Z'])

/-- a timestamp in one of the usual forms -/
def IsPlain (s : Stamp) : Prop := ∃ t, Plain s t

/-- the time of a timestamp in microseconds (0 when badly formed) -/
def timeOf (s : Stamp) : Int := (parse s).elim 0 usTime

/-- each timestamp is at or after those before it, as strings -/
def Ordered (ts : List Stamp) : Prop := ts.Pairwise (· ≤ ·)

/-- each timestamp is at or after those before it, as times -/
def Chronological (ts : List Stamp) : Prop := ts.Pairwise fun a b => timeOf a ≤ timeOf b

end Verif.TimeSeries
