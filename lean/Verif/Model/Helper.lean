import Verif.Model.Controller

/-!
# Socket files of jack-in and monitor servers

`/repo/twink/base.py`: `ParallelChannel.helper_path` (L566-575), `ParentChannel.close` (L711-726), the part of `ParentChannel.recv`
(L728-753) that concerns files, `jackin_server` and `monitor_server` (L755-769), `bound_socket` for paths (L592-596).

Files are those of the directory `socket_dir` (`socket_path`, L561-564, puts every name into it); the current directory is not changed.
Binding a socket creates its file and fails if it exists; closing the socket leaves it.  `id(self)` is a number.
What `recv` sends to monitors is in `Parent.lean`.
-/

namespace Twink.Helper

/-- A file name. -/
abbrev Text := List Char

/-- `jackin` or `monitor`. -/
inductive Kind where
  | jackin
  | monitor
  deriving DecidableEq, Repr

def Kind.text : Kind → Text
  | .jackin => ['j', 'a', 'c', 'k', 'i', 'n']
  | .monitor => ['m', 'o', 'n', 'i', 't', 'o', 'r']

/-- `"%x"`. -/
def hex (n : Nat) : Text := Nat.toDigits 16 n

/-- `"unknown-%x.%s" % (id(self), suffix)`. base.py:567 -/
def oldName (id : Nat) (k : Kind) : Text := ['u', 'n', 'k', 'n', 'o', 'w', 'n'] ++ '-' :: (hex id ++ '.' :: k.text)

/-- `"%x-%x.%s" % (self.datapath, id(self), suffix)`. base.py:569 -/
def newName (datapath id : Nat) (k : Kind) : Text := hex datapath ++ '-' :: (hex id ++ '.' :: k.text)

/-- The directory: which names exist. -/
abbrev Files := Text → Bool

/-- `os.rename`; nothing but OSError if the file does not exist. -/
def rename (f : Files) (old new : Text) : Files :=
  if f old then fun p => if p = new then true else if p = old then false else f p else f

/-- `os.remove`, with OSError ignored. -/
def remove (f : Files) (p : Text) : Files := fun q => if q = p then false else f q

/-- A `ParentChannel`: `up k` says whether `jackin_shutdown`, `monitor_shutdown` is set. -/
structure St where
  files : Files
  features : Features
  up : Kind → Bool

/-- Constants of a channel: `id(self)`, the negotiated version, `jackin` and `monitor`. -/
structure Conf where
  id : Nat
  version : Option Nat
  on : Kind → Bool

/-- `helper_path`: the files and the path returned. base.py:566-575 -/
def helperPath (c : Conf) (k : Kind) (s : St) : St × Text :=
  match s.features.datapath with
  | none => (s, oldName c.id k)
  | some d =>
    if d = 0 then (s, oldName c.id k)
    else ({ s with files := rename s.files (oldName c.id k) (newName d c.id k) }, newName d c.id k)

/-- `serv, addr = self.jackin_server()`: the socket is bound. base.py:734, 740, 755-769 -/
def bindServer (c : Conf) (k : Kind) (s : St) : St × Py Unit :=
  if (helperPath c k s).1.files (helperPath c k s).2 then ((helperPath c k s).1, .error .other)
  else
    ({ (helperPath c k s).1 with files := fun p => if p = (helperPath c k s).2 then true else (helperPath c k s).1.files p }, .ok ())

/-- `self.jackin_shutdown = serv.stop`. base.py:735, 741 -/
def setUp (k : Kind) (s : St) : St := { s with up := fun j => if j = k then true else s.up j }

/-- One of the two blocks of `recv` for a hello. base.py:733-736, 738-742 -/
def startServer (c : Conf) (k : Kind) (s : St) : St × Py Unit :=
  if c.on k then
    match bindServer c k s with
    | (s', .ok ()) => (setUp k s', .ok ())
    | (s', .error e) => (s', .error e)
  else (s, .ok ())

/-- Both blocks. base.py:733-742 -/
def startServers (c : Conf) (s : St) : St × Py Unit :=
  match startServer c .jackin s with
  | (s', .ok ()) => startServer c .monitor s'
  | (s', .error e) => (s', .error e)

/-- `if self.jackin: self.helper_path("jackin")`. base.py:745-748 -/
def touch (c : Conf) (k : Kind) (s : St) : St := if c.on k then (helperPath c k s).1 else s

/-- The part of `recv` behind `super().recv()`. base.py:730-748 -/
def afterRecv (c : Conf) (s : St) (m : Bytes) : St × Py Unit :=
  if m = [] then (s, .ok ())
  else
    match parseHeader m with
    | .error e => (s, .error e)
    | .ok (_, oftype, _, _) =>
      if oftype = 0 then startServers c s
      else if oftype = 6 then (touch c .monitor (touch c .jackin s), .ok ())
      else (s, .ok ())

/-- `recv` with the message `m` received: `ControllerChannel.recv`, then the rest. base.py:728-753 -/
def recvMessage (c : Conf) (s : St) (m : Bytes) : St × Py Unit :=
  match featuresRecv c.version s.features m with
  | (ft, .ok _) => afterRecv c { s with features := ft } m
  | (ft, .error e) => ({ s with features := ft }, .error e)

/-- The receiving loop: messages until one raises. -/
def recvMessages (c : Conf) : St → List Bytes → St
  | s, [] => s
  | s, m :: ms =>
    match recvMessage c s m with
    | (s', .ok ()) => recvMessages c s' ms
    | (s', .error _) => s'

/-- One of the two blocks of `close`; `stops` says whether `serv.stop()` returns. base.py:712-717, 719-724 -/
def closeServer (c : Conf) (k : Kind) (stops : Bool) (s : St) : St × Py Unit :=
  if s.up k then
    if stops then
      ({ (helperPath c k s).1 with files := remove (helperPath c k s).1.files (helperPath c k s).2 }, .ok ())
    else (s, .error .other)
  else (s, .ok ())

/-- `close`. base.py:711-726 -/
def close (c : Conf) (stops : Kind → Bool) (s : St) : St × Py Unit :=
  match closeServer c .jackin (stops .jackin) s with
  | (s', .ok ()) => closeServer c .monitor (stops .monitor) s'
  | (s', .error e) => (s', .error e)

/-- What threads do to the files, in smaller steps, so that `close` may run at any point of `recv` (and of another `close`).  `recv` is
`features`, then `helper k`, `bind k`, `assign k` for a hello or `helper k` for a features reply; a `close` is `helper k`, then `remove k`,
with the path that `helper_path` returned before: `stale` if it saw no datapath. -/
inductive Act where
  /-- `self.datapath = ...`. base.py:430, 432 -/
  | features (d : Nat)
  /-- `helper_path`. base.py:566-575 -/
  | helper (k : Kind)
  /-- `s.bind(info)` with the path just returned; an error ends the receiving thread. base.py:595, 756, 764 -/
  | bind (k : Kind)
  /-- `self.jackin_shutdown = serv.stop`. base.py:735, 740 -/
  | assign (k : Kind)
  /-- `os.remove(...)`. base.py:715, 722 -/
  | remove (k : Kind) (stale : Bool)
  deriving DecidableEq, Repr

/-- The path that `helper_path` returns. base.py:567, 569 -/
def path (c : Conf) (k : Kind) (d : Nat) : Text := if d = 0 then oldName c.id k else newName d c.id k

def act (c : Conf) (s : St) : Act → St
  | .features d => { s with features := { s.features with datapath := some d } }
  | .helper k => (helperPath c k s).1
  | .bind k => { s with files := fun p => if p = path c k (s.features.datapath.getD 0) then true else s.files p }
  | .assign k => setUp k s
  | .remove k stale => { s with files := remove s.files (path c k (if stale then 0 else s.features.datapath.getD 0)) }

def acts (c : Conf) : St → List Act → St
  | s, [] => s
  | s, a :: as => acts c (act c s a) as

end Twink.Helper
