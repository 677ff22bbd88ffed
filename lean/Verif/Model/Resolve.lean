import Verif.Model.IpAddr

/-!
# Model of src/ngircd/resolve.c and of the callbacks that read its results

The resolver is a child process: it asks the C library, writes its result into a pipe and exits.
The answers of the C library are the parameters in `Dns`; what `write()` puts into the pipe is what
one `read()` of the parent gets, up to the size of its buffer (the result is smaller than a pipe).
Modelled is the code with `HAVE_GETNAMEINFO`, `HAVE_WORKING_GETADDRINFO`, `WANT_IPV6` and `IDENTAUTH`.
Not modelled: the fork, the time limit of the child, its log messages.
-/

namespace Ngircd

/-- What the C library answers. -/
structure Dns where
  /-- `getnameinfo()` with `NI_NUMERICHOST`: the address as text -/
  numeric : IpMem → Option Str
  /-- the name of an address; `none`: an error -/
  reverse : IpMem → Option Str
  /-- `getaddrinfo()` for a name and an address family; `none`: an error -/
  forward : Str → Nat → Option (List IpMem)
  /-- `ident_id()` -/
  ident : Option Str

/-- `ReverseLookup`, resolve.c:170-217, with a buffer of `size` bytes: what is in the buffer, and
whether it is a name.  `getnameinfo()` fails if the name and its final zero do not fit. -/
def reverseLookup (d : Dns) (a : IpMem) (size : Nat) : Res (Str × Bool) :=
  let failed : Res (Str × Bool) := (ipToStr d.numeric a).bind (fun t => .ok (strlcpy size t, false))
  match d.reverse a with
  | none => failed
  | some n => if n.length < size then .ok (n, true) else failed

/-- `Addr_in_list`, resolve.c:295-324: the search; the assertion is a fault. -/
def addrSearch (a : IpMem) : List IpMem → Res Bool
  | [] => .ok false
  | b :: l => (ipEqual a b).bind (fun e => if e then .ok true else addrSearch a l)

/-- `Addr_in_list`, resolve.c:295-324. -/
def addrInList (l : List IpMem) (a : IpMem) : Res Bool :=
  if l.isEmpty then .fault else addrSearch a l

/-- The size of the buffer for a name, `CLIENT_HOST_LEN`, defines.h. -/
def RESOLVE_LEN : Nat := 64

/-- The part of `Do_ResolveAddr_Ident` up to `dns_done`, resolve.c:367-391: the name.
`ForwardLookup`, resolve.c:230-292, is `d.forward`: it fails with `getaddrinfo()` or without memory. -/
def resolvedName (d : Dns) (dns : Bool) (a : IpMem) : Res Str :=
  (ipToStr d.numeric a).bind (fun ip =>
    if !dns then .ok []
    else (reverseLookup d a RESOLVE_LEN).bind (fun (n, found) =>
      if !found then .ok n
      else match d.forward n (ipAf a) with
        | some l => (addrInList l a).bind (fun e => .ok (if e then n else strlcpy RESOLVE_LEN ip))
        | none => .ok (strlcpy RESOLVE_LEN ip)))

/-- `Do_ResolveAddr_Ident`, resolve.c:358-407: the bytes written.  `sock` tells whether there is a
connection to ask for the user name; `room` whether there was memory for the name, `room2` whether
there was memory for the user name.  The newline takes the place of the final zero in the buffer. -/
def resolveAddr (d : Dns) (dns sock room room2 : Bool) (a : IpMem) : Res Str :=
  (resolvedName d dns a).bind (fun n =>
    if n.length ≥ RESOLVE_LEN then .fault
    else if !room then .ok []
    else .ok (n ++ '\n' :: (if sock && room2 then d.ident.getD [] else [])))

/-- What the parent takes from a result: a host name and a user name for the client. -/
structure Found where
  host : Option Str := none
  user : Option Str := none
  deriving DecidableEq, Repr

/-- The size of the buffer less one: `HOST_LEN + 2 + CLIENT_USER_LEN - 1`, conn.c:2278, 2296. -/
def RESULT_LEN : Nat := 277

/-- The test of the characters of a user name, conn.c:2338-2344. -/
def identChar (c : Char) : Bool :=
  ('0' ≤ c && c ≤ '9') || ('A' ≤ c && c ≤ 'Z') || ('a' ≤ c && c ≤ 'z')

/-- `cb_Read_Resolver_Result`, conn.c:2270-2382: what is read from the result.  The buffer is a C
string, so it ends at its first zero; the assertion that it contains a newline is a fault. -/
def readResult (bytes : Str) : Res Found :=
  let buf := bytes.take RESULT_LEN
  if buf.isEmpty then .ok {}
  else
    let text := cutAt buf '\x00'
    let host := cutAt text '\n'
    if host.length = text.length then .fault
    else
      let id := text.drop (host.length + 1)
      .ok { host := if host.isEmpty then none else some host
            user := if !id.isEmpty && id.all identChar then some id else none }

/-- The resolver for an address, from the child to the parent. -/
def lookupAddr (d : Dns) (dns sock room room2 : Bool) (a : IpMem) : Res Found :=
  (resolveAddr d dns sock room room2 a).bind readResult

/-! ## Addresses of servers -/

/-- `Do_ResolveName`, resolve.c:410-450, with `ConnectIPv4` and `ConnectIPv6`: the bytes written
(none after an error).  The assertions are faults. -/
def resolveName (d : Dns) (v4 v6 : Bool) (host : Str) : Res (List Nat) :=
  if !v4 && !v6 then .fault
  else
    let af := if !v4 then AF_INET6 else if !v6 then AF_INET else 0
    match d.forward host af with
    | none => .ok []
    | some l => if l.isEmpty then .fault else .ok l.flatten

/-- `sizeof(ng_ipaddr_t)`, ng_ipaddr.h:35-40. -/
def ADDR_LEN : Nat := 28

/-- The addresses kept for an entry, `dst_addr[2]`, conf.h:61. -/
structure KeptAddrs where
  first : IpMem
  second : IpMem
  deriving DecidableEq, Repr

/-- An address of zeros. -/
def noAddr : IpMem := List.replicate ADDR_LEN 0

/-- `cb_Connect_to_Server`, conn.c:2207-2261: the address tried, and those kept.  The buffer has
room for four addresses. -/
def connectTo (bytes : List Nat) : Res (Option (IpMem × KeptAddrs)) :=
  let buf := bytes.take (4 * ADDR_LEN)
  if buf.isEmpty then .ok none
  else if buf.length % ADDR_LEN ≠ 0 then .fault
  else
    let more := if buf.length > ADDR_LEN then (buf.drop ADDR_LEN).take (2 * ADDR_LEN) else []
    let mem := more ++ List.replicate (2 * ADDR_LEN - more.length) 0
    .ok (some (buf.take ADDR_LEN, ⟨mem.take ADDR_LEN, mem.drop ADDR_LEN⟩))

/-- The addresses tried after that, one after each failure, `cb_connserver`, conn.c:179-248; `fails`
bounds the number of failures. -/
def triedNext : Nat → KeptAddrs → List IpMem
  | 0, _ => []
  | fails + 1, k => if ipAf k.first ≠ 0 then k.first :: triedNext fails ⟨k.second, noAddr⟩ else []

/-- All addresses tried for an entry until `fails` of them have failed. -/
def triedAddrs (fails : Nat) (bytes : List Nat) : Res (List IpMem) :=
  (connectTo bytes).bind (fun r => match r with
    | none => .ok []
    | some (a, k) => .ok (a :: triedNext fails k))

end Ngircd
