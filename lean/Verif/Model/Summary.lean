import Verif.Model.Stream
import Verif.Model.MorePlot
import Verif.Model.StartUp
import Verif.Py.Round

/-!
# Model: printed summaries of streams of correlations
-/

namespace SeisMIC

variable {V : Type}

/-- `CorrStream.__init__` (stream.py:847-857) with a list: an object that is no `CorrTrace` (here `none`) is a TypeError. -/
def corrStreamInit : List (Option (CTr V)) → Except PyErr (List (CTr V))
  | [] => .ok []
  | none :: _ => .error .typeError
  | some tr :: l => (corrStreamInit l).map (tr :: ·)

/-- `str` of a `UTCDateTime` in nanoseconds: `'%Y-%m-%dT%H:%M:%S.%fZ'`. Years 1 to 9999. Times that are no whole number of
microseconds are rounded down here. -/
def timeText (t : Int) : Str :=
  let c := civilOf (t / 1000)
  let s := c.us / 1000000
  fixedDigits 4 c.year.toNat ++ c!"-" ++ fixedDigits 2 c.month ++ c!"-" ++ fixedDigits 2 c.day ++ c!"T" ++
    fixedDigits 2 (s / 3600) ++ c!":" ++ fixedDigits 2 (s / 60 % 60) ++ c!":" ++ fixedDigits 2 (s % 60) ++ c!"." ++
    fixedDigits 6 (c.us % 1000000) ++ c!"Z"

/-- `'%.1f' % x` of a number that is not negative -/
def oneDecimal (x : Rat) : Str :=
  let n := (pyRound (x * 10)).toNat
  natStr (n / 10) ++ c!"." ++ natStr (n % 10)

/-- `tr.id` of obspy: network, station, location and channel -/
def CorrStats.ident (s : CorrStats V) : Str := s.network ++ c!"." ++ s.station ++ c!"." ++ s.location ++ c!"." ++ s.channel

/-- `'%-ns' % s`: blanks are appended -/
def padTo (n : Nat) (s : Str) : Str := s ++ List.replicate (n - s.length) ' '

/-- `CorrTrace.__str__` (stream.py:1318-1362). `idLength` 0: not given. `preview`: the header entry of this name is true.
`masked`: the data have masked samples. -/
def ctrText (idLength : Nat) (preview masked : Bool) (s : CorrStats V) : Str :=
  padTo idLength s.ident ++ c!" | " ++ timeText s.corrStart ++ c!" - " ++ timeText s.corrEnd ++ c!" | " ++
    (if s.samplingRate < 1 / 10 then oneDecimal s.delta ++ c!" s, " else oneDecimal s.samplingRate ++ c!" Hz, ") ++
    natStr s.npts.toNat ++ c!" samples" ++ (if preview then c!" [preview]" else []) ++ (if masked then c!" (masked)" else [])

/-- length of the longest identifier (stream.py:877-881) -/
def longestId (st : List (CTr V)) : Nat := (st.map fun tr => tr.stats.ident.length).foldl max 0

/-- `CorrStream.__str__` (stream.py:859-890) -/
def streamText (preview masked : CTr V → Bool) (extended : Bool) (st : List (CTr V)) : Str :=
  let line (w : Nat) (tr : CTr V) := ctrText w (preview tr) (masked tr) tr.stats
  let out := natStr st.length ++ c!" Correlation(s) in Stream:\n"
  match decide (st.length ≤ 20) || extended, st.head?, st.getLast? with
  | false, some first, some last =>
    out ++ c!"\n" ++ line 0 first ++ c!"\n" ++ c!"...\n(" ++ natStr (st.length - 2) ++ c!" other correlations)\n...\n" ++
      line 0 last ++ c!"\n\n[Use \"print(Stream.__str__(extended=True))\" to print all correlaitons]"
  | _, _, _ => out ++ joinWith c!"\n" (st.map (line (longestId st)))

end SeisMIC
