import Verif.Model.Array

/-!
# Model of src/ipaddr/ng_ipaddr.c and ng_ipaddr.h, and of Count_Connections()

An `ng_ipaddr_t` is the union of `sockaddr_in` and `sockaddr_in6` in the layout of Linux
on a little-endian machine: its 28 bytes.

    sockaddr_in   family 0-1   port 2-3   address 4-7
    sockaddr_in6  family 0-1   port 2-3   flow info 4-7   address 8-23   scope 24-27

The compilation with WANT_IPV6 is modelled.  `getaddrinfo()` and `getnameinfo()` belong to
the C library; the latter is a parameter.
-/

namespace Ngircd

/-- `AF_INET` on Linux. -/
def AF_INET : Nat := 2

/-- `AF_INET6` on Linux. -/
def AF_INET6 : Nat := 10

/-- The bytes of an `ng_ipaddr_t`, ng_ipaddr.h:35-40. -/
abbrev IpMem := List Nat

/-- `ng_ipaddr_af` / `a->sa.sa_family`, ng_ipaddr.h:50-60. -/
def ipAf (a : IpMem) : Nat := a.getD 0 0 + 256 * a.getD 1 0

/-- `memcmp(&a->sin4.sin_addr, …)`: the bytes of the IPv4 address, ng_ipaddr.c:122. -/
def ipBytes4 (a : IpMem) : List Nat := (a.drop 4).take 4

/-- `a->sin6.sin6_addr`: the bytes of the IPv6 address, ng_ipaddr.c:120. -/
def ipBytes6 (a : IpMem) : List Nat := (a.drop 8).take 16

/-- `ng_ipaddr_salen`, ng_ipaddr.h:63-74; the assertions are faults. -/
def ipSalen (a : IpMem) : Res Nat :=
  if ipAf a = AF_INET6 then .ok 28 else if ipAf a = AF_INET then .ok 16 else .fault

/-- `ng_ipaddr_getport`, ng_ipaddr.h:77-92. -/
def ipGetPort (a : IpMem) : Res Nat :=
  if ipAf a = AF_INET6 then .ok (256 * a.getD 2 0 + a.getD 3 0)
  else if ipAf a = AF_INET then .ok (256 * a.getD 2 0 + a.getD 3 0)
  else .fault

/-- `ng_ipaddr_setport`, ng_ipaddr.c:80-105; `htons()` puts the high byte first. -/
def ipSetPort (a : IpMem) (port : Nat) : Res IpMem :=
  if ipAf a = AF_INET then .ok ((a.set 2 (port / 256 % 256)).set 3 (port % 256))
  else if ipAf a = AF_INET6 then .ok ((a.set 2 (port / 256 % 256)).set 3 (port % 256))
  else .fault

/-- `ng_ipaddr_ipequal`, ng_ipaddr.c:109-130.  (The comparison of the two lengths that is
asserted is true, as the families are the same.) -/
def ipEqual (a b : IpMem) : Res Bool :=
  if ipAf a ≠ ipAf b then .ok false
  else (ipSalen a).bind (fun _ =>
    if ipAf a = AF_INET6 then .ok (ipBytes6 a == ipBytes6 b)
    else if ipAf a = AF_INET then .ok (ipBytes4 a == ipBytes4 b)
    else .ok false)

/-- `INET6_ADDRSTRLEN`, ng_ipaddr.h:27-31. -/
def INET6_ADDRSTRLEN : Nat := 46

/-- `ng_ipaddr_tostr_r`, ng_ipaddr.c:147-175.  `gni a` is what `getnameinfo()` returns for the
address in numeric form (`none`: an error, which the code asserts not to happen); the second
call has one byte less of room. -/
def ipToStr (gni : IpMem → Option Str) (a : IpMem) : Res Str :=
  (ipSalen a).bind (fun _ =>
    match gni a with
    | none => .fault
    | some t =>
      if t.length ≥ INET6_ADDRSTRLEN then .fault
      else if t.head? = some ':' then
        if t.length ≥ INET6_ADDRSTRLEN - 1 then .fault
        else .ok (strlcpy INET6_ADDRSTRLEN ('0' :: t))
      else .ok t)

/-- A slot of `My_Connections`: its socket (-1: unused) and its address, conn.h:74-82. -/
abbrev ConnSlot := Int × IpMem

/-- The loop of `Count_Connections`, conn.c:1343-1356. -/
def countFrom (a : IpMem) : List ConnSlot → Nat → Res Nat
  | [], cnt => .ok cnt
  | (sock, b) :: l, cnt =>
    if sock ≤ -1 then countFrom a l cnt
    else (ipEqual b a).bind (fun e => countFrom a l (if e then cnt + 1 else cnt))

/-- `Count_Connections`, conn.c:1343-1356. -/
def countConns (table : List ConnSlot) (a : IpMem) : Res Nat := countFrom a table 0

/-- The test of `New_Connection` for the limit per address, conn.c:1427-1428. -/
def ipLimitReached (table : List ConnSlot) (a : IpMem) (max : Int) : Res Bool :=
  (countConns table a).bind (fun cnt => .ok (decide (max > 0) && decide ((cnt : Int) ≥ max)))

end Ngircd
