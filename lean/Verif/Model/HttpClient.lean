import Verif.Model.Incoming

/-!
# The client's HTTP transport (client/spa_comm.c)

The sockets are not modelled: the result is where the client connects to and what it sends.
-/

namespace Fwknop

/-- client/fwknop_common.h:65. -/
abbrev HTTP_MAX_REQUEST_LEN : Nat := 2000

/-- common/common.h:152 (`spa_server_str`, client/fwknop_common.h:89). -/
abbrev MAX_SERVER_STR_LEN : Nat := 50

/-- client/spa_comm.c:540-545. -/
def urlChar (c : Nat) : Nat := if c = 43 then 45 else if c = 47 then 95 else c

/-- What both requests have after the data, client/spa_comm.c:552-553 and 593-594. -/
def httpTail (agent host : Str) : Str :=
  b!" HTTP/1.1" ++ [13, 10] ++ b!"User-Agent: " ++ agent ++ [13, 10] ++ b!"Accept: */*" ++ [13, 10] ++
    b!"Host: " ++ host ++ [13, 10] ++ b!"Connection: close" ++ [13, 10] ++ [13, 10]

/-- The text in http_proxy after `memmove(ndx, ndx+7, strlen(ndx)+1)`, client/spa_comm.c:565-566:
the copy reads seven bytes behind the terminator, which must still be inside the array. -/
def stripScheme (proxy : Str) : Res Str :=
  if hasPrefixI b!"http://" proxy then do
    Res.mem (proxy.length + 8 > HTTP_MAX_REQUEST_LEN)
    return proxy.drop 7
  else .ok proxy

/-- Host and port of the proxy, client/spa_comm.c:572-589; port 0 means none was given. -/
def splitProxy (p : Str) : Res (Str × Int) :=
  if 58 ∈ p then do
    let v := strtol_wrapper ((p.dropWhile (· ≠ 58)).drop 1) 1 65535
    Res.guard (!v.2)
    return (p.takeWhile (· ≠ 58), v.1)
  else .ok (p, 0)

/-- What is sent, and where to. -/
structure HttpSend where
  host : Str
  port : Int
  request : Str
deriving DecidableEq, Repr

/-- `send_spa_packet_http`, client/spa_comm.c:520-617.  `proxy` is the text of --HTTP-proxy (empty
if not given), `agent` the user agent, `server` the server's name, `port` its port.  All texts
come from arrays of the sizes in client/fwknop_common.h. -/
def send_spa_packet_http (spa : Str) (server : Str) (port : Int) (agent proxy : Str) : Res HttpSend :=
  if proxy = [] then
    .ok ⟨server, port, (b!"GET /" ++ spa.map urlChar ++ httpTail agent server).take (HTTP_MAX_REQUEST_LEN - 1)⟩
  else do
    let q ← stripScheme proxy
    let h ← splitProxy q
    return ⟨h.1.take (MAX_SERVER_STR_LEN - 1), if h.2 ≠ 0 then h.2 else port,
      (b!"GET http://" ++ server ++ b!"/" ++ spa.map urlChar ++ httpTail agent h.1).take (HTTP_MAX_REQUEST_LEN - 1)⟩

end Fwknop
