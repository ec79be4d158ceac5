import Verif.Py.Basic

/-!
# Model: station information kept by `Store_Client` (waveform.py)

An inventory is the list of its channels, each given by network, station and channel code. Epochs and
responses are left out: a channel is known or not.
-/

namespace SeisMIC

/-- network, station and channel code -/
abbrev ChanInfo := Str × Str × Str

/-- a client and its directory: `self.inventory`, whether `inv_dir` exists, and the xml-files in it with
their contents -/
structure InvState where
  mem : List ChanInfo
  dir : Bool
  files : List (Str × List ChanInfo)
deriving DecidableEq

/-- `f'{ninv[0].code}.{ninv[0][0].code}.xml'` (waveform.py:388-389) for the first channel of an inventory -/
def invName (c : ChanInfo) : Str := c.1 ++ '.' :: (c.2.1 ++ c!".xml")

/-- a file is created or replaced -/
def putFile (name : Str) (inv : List ChanInfo) (files : List (Str × List ChanInfo)) : List (Str × List ChanInfo) :=
  files.filter (fun f => decide (f.1 ≠ name)) ++ [(name, inv)]

/-- `_write_inventory` (waveform.py:380-390); the inventory of the client is never `None`. An empty inventory
has no first network (IndexError), a file in a missing directory cannot be written. -/
def writeInvFile (s : InvState) (ninv : List ChanInfo) : InvState × Option PyErr :=
  let s := { s with mem := s.mem ++ ninv }
  match ninv with
  | [] => (s, some .indexError)
  | c :: _ => if s.dir then ({ s with files := putFile (invName c) ninv s.files }, none) else (s, some .fileNotFoundError)

/-- `read_inventory` (waveform.py:313-321); obspy raises an exception if there is no file -/
def readInvFiles (s : InvState) : InvState × Option PyErr :=
  if s.files = [] then (s, some .obsPyError) else ({ s with mem := s.files.flatMap (·.2) }, none)

/-- a new client on the same directory (waveform.py:61-73). Only xml-files are in the directory of
inventories. -/
def openClient (readOnly : Bool) (s : InvState) : InvState × Option PyErr :=
  let r := if s.dir && !s.files.isEmpty then readInvFiles s else ({ s with mem := [] }, none)
  ({ r.1 with dir := r.1.dir || !readOnly }, r.2)

/-- the server: answer to `get_stations` for network, station and channel (`none` is `'*'`) -/
abbrev InvServer := Str → Str → Option Str → Except PyErr (List ChanInfo)

/-- `select_inventory_or_load_remote` (waveform.py:323-344) -/
def selectInventory (srv : InvServer) (net sta : Str) (s : InvState) : InvState × Option PyErr :=
  if s.mem.any (fun c => decide (c.1 = net ∧ c.2.1 = sta)) then (s, none)
  else match srv net sta none with
    | .error e => (s, some e)
    | .ok inv => writeInvFile s inv

/-- the part of `_load_remote` (waveform.py:271-282) that handles inventories, for data of one channel that
the server has: a channel that is not in the inventory is a warning, which is turned into an exception -/
def loadRemoteInv (srv : InvServer) (net sta cha : Str) (s : InvState) : InvState × Option PyErr :=
  if (net, sta, cha) ∈ s.mem then (s, none)
  else match srv net sta (some cha) with
    | .error e => (s, some e)
    | .ok inv => writeInvFile s inv

/-- calls of the user -/
inductive InvCall
  | read
  | reopen (readOnly : Bool)
  | select (net sta : Str)
  | load (net sta cha : Str)
deriving DecidableEq

/-- a call; the exceptions go to the user, who goes on -/
def invCall (srv : InvServer) (s : InvState) : InvCall → InvState
  | .read => (readInvFiles s).1
  | .reopen ro => (openClient ro s).1
  | .select n st => (selectInventory srv n st s).1
  | .load n st c => (loadRemoteInv srv n st c s).1

/-- a sequence of calls -/
def invCalls (srv : InvServer) (s : InvState) (cs : List InvCall) : InvState := cs.foldl (invCall srv) s

end SeisMIC
