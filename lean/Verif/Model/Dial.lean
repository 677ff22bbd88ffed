import Verif.Model.Str

/-!
# The table of configured servers: conf.c and conn.c

Which links are established by this server itself, and when.  The table is modelled apart from the
rest of the server, with the events that touch it.  Not modelled: passwords, SSL settings and bind
addresses of an entry, and the re-reading of the configuration file.
-/

namespace Ngircd

/-- `conn_id` of a server entry, conf.h:58: `NONE`, `SERVER_WAIT`, or the connection. -/
inductive SlotConn
  | none
  | wait
  | up (i : Nat)
  deriving DecidableEq, Repr

/-- `_Conf_Server`, conf.h:47-68.  `group = none` is the group `NONE`; the flags are
`CONF_SFLAG_DISABLED` and `CONF_SFLAG_ONCE`; `addrs` are the addresses not tried yet; `resolving`
tells whether the pipe of the resolver is open; `connecting` is the option `CONN_ISCONNECTING` of the
connection of this entry. -/
structure Slot where
  name : Str
  host : Str
  port : Nat
  group : Option Nat
  lasttry : Int
  disabled : Bool
  once : Bool
  conn : SlotConn
  addrs : List Nat
  resolving : Bool
  connecting : Bool
  deriving DecidableEq, Repr

/-- `Conf_ConnectRetry` and `NGIRCd_Passive`. -/
structure LinkConf where
  retry : Nat
  passive : Bool
  deriving DecidableEq, Repr

/-- `STARTUP_DELAY`, defines.h:74. -/
def STARTUP_DELAY : Int := 1
/-- `RECONNECT_DELAY`, defines.h:77. -/
def RECONNECT_DELAY : Int := 3

/-- `Init_Server_Struct`, conf.c:2376-2396. -/
def initSlot (e : LinkConf) (now : Int) : Slot :=
  { name := [], host := [], port := 0, group := none, lasttry := now - e.retry + STARTUP_DELAY,
    disabled := e.passive, once := false, conn := .none, addrs := [], resolving := false, connecting := false }

/-- The table, and a record of the attempts to establish a link by this server: the index of the
entry and the time (newest first). -/
structure Links where
  slots : List Slot
  tried : List (Nat × Int)
  deriving DecidableEq, Repr

/-- The search for another connection in the group, conn.c:1975-1985. -/
def groupBusy (slots : List Slot) (i : Nat) (x : Slot) : Bool :=
  match x.group with
  | none => false
  | some g => (List.range slots.length).any (fun n =>
      n != i && (match slots[n]? with
        | some y => y.conn != .none && y.group == some g
        | none => false))

/-- One entry in `Check_Servers`, conn.c:1955-2000.  `ok` tells whether the resolver could be
started. -/
def checkSlot (e : LinkConf) (now : Int) (ok : Nat → Bool) (t : Links) (i : Nat) : Links :=
  match t.slots[i]? with
  | none => t
  | some x =>
    if x.conn != .none then t
    else if x.host.isEmpty || x.port == 0 then t
    else if x.disabled then t
    else if x.lasttry > now - e.retry then t
    else if groupBusy t.slots i x then t
    else
      { slots := t.slots.set i { x with lasttry := now, conn := if ok i then .wait else .none, resolving := ok i }
        tried := (i, now) :: t.tried }

/-- `Check_Servers`, conn.c:1955-2000. -/
def checkServers (e : LinkConf) (now : Int) (ok : Nat → Bool) (t : Links) : Links :=
  (List.range t.slots.length).foldl (checkSlot e now ok) t

/-- `Conf_UnsetServer`, conf.c:524-560, for one entry.  `rnd` is the random delay. -/
def unsetSlot (e : LinkConf) (now : Int) (rnd : Nat) (i : Nat) (x : Slot) : Slot :=
  if x.conn ≠ .up i then x
  else if x.once then initSlot e now
  else { x with conn := .none, connecting := false, lasttry := if x.lasttry < now - e.retry then now - e.retry + RECONNECT_DELAY else now + rnd }

/-- `Conf_UnsetServer`, conf.c:524-560. -/
def unsetServer (e : LinkConf) (now : Int) (rnd : Nat) (i : Nat) (t : Links) : Links :=
  { t with slots := t.slots.map (unsetSlot e now rnd i) }

/-- Change one entry of the table. -/
def Links.upd (t : Links) (i : Nat) (f : Slot → Slot) : Links :=
  match t.slots[i]? with
  | none => t
  | some x => { t with slots := t.slots.set i (f x) }

/-- `New_Server`, conn.c:2008-2129: `sock` is the new connection, or `none` if it could not be
made. -/
def dialSlot (sock : Option Nat) (x : Slot) : Slot :=
  match x.conn with
  | .up _ => x
  | _ => { x with conn := (match sock with | some n => .up n | none => .none), connecting := sock.isSome }

/-- `cb_Connect_to_Server`, conn.c:2207-2261: the result of the resolver, a list of addresses.
At most three addresses are used. -/
def resolvedSlot (found : List Nat) (sock : Option Nat) (x : Slot) : Slot :=
  if !x.resolving then x
  else if found.isEmpty then { x with conn := .none, resolving := false }
  else dialSlot sock { x with addrs := (found.drop 1).take 2, resolving := false }

/-- The part of `cb_connserver` after a failed connection has been closed, conn.c:222-231. -/
def nextAddr (sock : Option Nat) (x : Slot) : Slot :=
  match x.addrs with
  | [] => x
  | _ :: as => { dialSlot sock x with addrs := as }

/-- The part of `cb_connserver` after a successful connection, conn.c:236-240. -/
def connectedSlot (x : Slot) : Slot := { x with addrs := [], connecting := false }

/-- The index of the first entry that satisfies a test, as all the searches in conf.c do. -/
def firstSlot (p : Slot → Bool) (slots : List Slot) : Option Nat := slots.findIdx? p

/-- `Conf_SetServer`, conf.c:565-582: `false` if the connection has to be closed. -/
def setServer (n : Nat) (i : Nat) (t : Links) : Links × Bool :=
  match t.slots[n]? with
  | none => (t, false)
  | some x =>
    match x.conn with
    | .up j => if j ≠ i then (t, false) else ({ t with slots := t.slots.set n { x with conn := .up i } }, true)
    | _ => ({ t with slots := t.slots.set n { x with conn := .up i } }, true)

/-- `Conf_EnableServer`, conf.c:606-621. -/
def enableServer (name : Str) (port : Nat) (t : Links) : Links :=
  match firstSlot (fun x => caseEq x.name name) t.slots with
  | none => t
  | some n => t.upd n (fun x => { x with port := port, disabled := false })

/-- `Conf_EnablePassiveServer`, conf.c:632-648. -/
def enablePassive (name : Str) (t : Links) : Links :=
  match firstSlot (fun x => caseEq x.name name && decide (0 < x.port)) t.slots with
  | none => t
  | some n => t.upd n (fun x => { x with disabled := false, lasttry := 0 })

/-- `Conf_DisableServer`, conf.c:656-674.  Closing the connection (`Conn_Close`) calls
`Conf_UnsetServer`. -/
def disableServer (e : LinkConf) (now : Int) (rnd : Nat) (name : Str) (t : Links) : Links :=
  match firstSlot (fun x => caseEq x.name name) t.slots with
  | none => t
  | some n =>
    let t := t.upd n (fun x => { x with disabled := true })
    match t.slots[n]? with
    | some x => (match x.conn with | .up i => unsetServer e now rnd i t | _ => t)
    | none => t

/-- `Conf_AddServer`, conf.c:686-713. -/
def addServer (e : LinkConf) (now : Int) (name : Str) (port : Nat) (host : Str) (t : Links) : Links :=
  match firstSlot (fun x => x.name.isEmpty) t.slots with
  | none => t
  | some n => t.upd n (fun _ => { initSlot e now with name := name.take 63, host := host.take 255, port := port, disabled := false, once := true })

/-- What can happen to the table. -/
inductive LinkEvent
  /-- the main loop checks the table -/
  | check (ok : Nat → Bool)
  /-- the resolver of entry `n` has finished; `sock` is the connection made, if any -/
  | resolved (n : Nat) (found : List Nat) (sock : Option Nat)
  /-- the connection could not be established; `sock` is the connection made to the next address -/
  | failed (i : Nat) (rnd : Nat) (sock : Option Nat)
  /-- the connection has been established -/
  | connected (i : Nat)
  /-- a connection has been closed -/
  | closed (i : Nat) (rnd : Nat)
  /-- a server has registered over connection `i` as entry `n` -/
  | linked (n i : Nat)
  /-- CONNECT with a port, CONNECT, DISCONNECT, and CONNECT of a new server -/
  | enable (name : Str) (port : Nat)
  | enablePassive (name : Str)
  | disable (name : Str) (rnd : Nat)
  | add (name : Str) (port : Nat) (host : Str)

/-- One event, at time `now`: conn.c:181-242 for the result of a connection attempt.  A connection
attempt only has a result if it is going on. -/
def Links.step (e : LinkConf) (now : Int) (t : Links) : LinkEvent → Links
  | .check ok => checkServers e now ok t
  | .resolved n found sock => t.upd n (resolvedSlot found sock)
  | .failed i rnd sock =>
    match firstSlot (fun x => x.conn == .up i) t.slots with
    | none => unsetServer e now rnd i t
    | some n =>
      if (t.slots[n]?).any (·.connecting) then (unsetServer e now rnd i t).upd n (nextAddr sock) else t
  | .connected i =>
    match firstSlot (fun x => x.conn == .up i) t.slots with
    | none => t
    | some n => t.upd n (fun x => if x.connecting then connectedSlot x else x)
  | .closed i rnd => unsetServer e now rnd i t
  | .linked n i => (setServer n i t).1
  | .enable name port => enableServer name port t
  | .enablePassive name => Ngircd.enablePassive name t
  | .disable name rnd => disableServer e now rnd name t
  | .add name port host => addServer e now name port host t

/-- A sequence of events, with their times. -/
def Links.runs (e : LinkConf) (t : Links) : List (Int × LinkEvent) → Links
  | [] => t
  | (now, ev) :: evs => Links.runs e (t.step e now ev) evs

end Ngircd
