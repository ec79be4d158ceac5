import Verif.Model.Stream

/-!
# Model: the printed summary of a velocity change (monitor/dv.py)
-/

namespace SeisMIC

/-- what `DV.__str__` looks at. `processing`: the printed `dv_processing`. A method that is an array of one string (stretch_mod.py:1098) is given by this string. -/
structure DvShown where
  network : Str
  station : Str
  channel : Str
  method : Str
  valueType : Str
  corrStart : List Int
  corrEnd : List Int
  processing : Str

/-- `DV.__str__` (dv.py:84-98); `ctime` prints a time -/
def DvShown.str (ctime : Int → Str) (d : DvShown) : Except PyErr Str := do
  let code := d.network ++ c!"." ++ d.station ++ c!"." ++ d.channel
  let s ← pyMin d.corrStart
  let e ← pyMax d.corrEnd
  if d.method = c!"time_shift" then
    pure (c!"Time shift estimate of " ++ code ++ c!".\nstarttdate: " ++ ctime s ++ c!"\nenddate: " ++ ctime e)
  else
    pure (d.method ++ c!" " ++ d.valueType ++ c!" velocity change estimate of " ++ code ++ c!".\nstarttdate: " ++ ctime s ++ c!"\nenddate: " ++ ctime e ++
      c!"\n\nprocessed with the following parameters: " ++ d.processing)

end SeisMIC
