# Formal model of ngIRCd in Lean 4 - design

## Layout

* `lean/Verif/Model/*.lean` - the model: total, computable Lean functions, one per
  C function, each with a comment citing file and lines in /repo.
* `lean/Verif/Spec/*.lean` - small specifications, written in the vocabulary of the
  English property (what a wildcard match *is*, what the lines of a stream *are*, who
  is on a channel, which lines leave on which connection ...) and not in terms of the
  model's helpers.  `Spec/Sample*.lean` build concrete networks by feeding events to the
  model from the empty server; they are used only for the non-vacuity examples.
* `lean/Verif/Lemmas/*.lean` - helper lemmas and invariants.
* `lean/Verif/Props/*.lean` - the property theorems (`C01_...`), each with an `example`
  showing that a concrete, reachable, non-trivial case meets its hypotheses.
* `tools/` - generators for properties.jsonl and MANIFEST.json and the check that every
  citation in the model names existing lines.  `seeded/LOG.jsonl` - the wrong programs
  tried against the theorems.

## Conventions

* A C string is a `List Char` holding the bytes before the terminating NUL; a `Char`
  stands for one byte.  Character classification is ASCII (the daemon never calls
  `setlocale`).
* Undefined behaviour is never modelled as "something sensible": where the code can
  reach it, the model has a distinct outcome (`ub`, `none`, or the flag `fault` of the
  server state) and the event semantics stops there.
* Clients, channels and memberships live in lists in the order of the C linked lists
  (new elements first); a C pointer becomes a number that is never reused.
* The modelled build is the default one: no STRICT_RFC, no ZLIB, SSL, ICONV, IDENT, PAM.

## How the model is built

Two layers.

**Byte level** (self-contained modules): `Match` (match.c), `Str` (strlcpy.c, strlcat,
tool.c), `Hash` (hash.c), `Lists` (lists.c), `Array` (array.c with 64-bit sizes and an
allocation oracle), `IpAddr` (ng_ipaddr.c, the connection count of conn.c), `ConnRead`
(Read_Request/Handle_Buffer/penalties of conn.c for *arbitrary* packet boundaries and
arbitrary command handlers), `ConnWrite` (Conn_WriteStr/Conn_Write/Handle_Write with an
oracle for write()), `Parse` (Parse_Request, ScrubCTCP).

**Server level**: one state `Srv` (configuration, clients, channels, memberships,
connections, the WHOWAS ring, counters, G-/K-lines, clock, output) and one function
`step : Srv -> Event -> Srv`.  Events: a connection is accepted, an outgoing connection
is made/established, the resolver answers, a line arrives on a connection, other data
arrives, a connection is lost, the clock ticks (idle check), the configuration is
re-read.  `step` runs the dispatcher (parse.c) and the real command handlers
(irc*.c, login.c, client.c, channel.c, op.c, class.c, numeric.c, conn-func.c).  A run is
a sequence of events from `Srv.init conf host now`, for every configuration; nothing
bounds the number of events, clients, channels or servers.
`Reachable s` - any run.  `PoliteRun s` - any run with a sane configuration
(`GoodConf`) in which *peer servers* only send what a well-behaved server sends
(`Polite`, Spec/Polite.lean).  Ordinary users are never restricted.  Properties that need
the hypothesis have a `..._violated_by_peer` theorem showing that they need it, or are
about such runs by nature.

## Properties: what is modelled and how it is proved

(the statements are in properties.jsonl; file = `Props/<file>.lean`)

| id | file | model | proof shape |
|----|------|-------|-------------|
| C01 C02 C03 | Match | `Match`, `Matche`, `Matche_After_Star`, `MatchCaseInsensitive(List)` vs. an inductive `Glob` relation | soundness by functional induction; completeness outside two bad mask classes; violations proved |
| C04 C05 C36 | ConnRead | read buffer machine vs. `lines` of the stream, penalties | invariant executed ++ lines(rest) = lines(stream), induction over operations |
| C06 C07 | ConnWrite | output path with a write() oracle | algebra / invariant over histories |
| C08 C09 C43 | Parse | tokenizer, CTCP scrubbing | round trip; shape theorem for every line; characterisation |
| C10 | Prefix | `Validate_Prefix` | decision logic + registry invariant |
| C11 | Dispatch | command table, `Handle_Request` | theorem over the whole table |
| C12 C13 C14 C16 C17 C31 C41 | Registry | clients, channels, tokens, mode strings over runs | inductive invariants over all events; violations by impolite peers proved |
| C15 C39 C53 | Registration | login state machine, CAP | invariants over recorded histories |
| C18 C19 C57 | Join, Announce, JoinTold | irc-channel.c JOIN/PART/KICK/TOPIC | decision logic; exact output |
| C20 C21 C51 C44 | Messages, Targets | `Can_Send_To_Channel`, `Send_Message`, irc-write.c marking | exact output per connection, induction over targets |
| C22 C66 C32 | Notify, Netsplit, Links | `Client_Destroy`, SQUIT | exact output, induction over the server tree |
| C23 C41 C61 | ChanModes, ModeTold | `Channel_Mode` | no escalation for every MODE line; exact effect and announcement |
| C24 C47 | Kick | `Channel_Kick`, `Remove_Client` | decision logic, frame |
| C25 C26 C62 C63 C64 | UserModes, UserTold | `Client_Mode`, OPER | decision logic; exact effect and announcement |
| C27 C54 C58 C65 | Oper, Kill, Wallops, Webirc | op.c, irc-oper.c, irc-login.c | decision logic, exact effect |
| C28 C29 C30 C60 | Lists, Invite | lists.c, INVITE | refinement to finite maps; exact effect |
| C33 C45 | Counters, Whowas | counters, WHOWAS ring | invariants over runs |
| C34 C35 C42 C46 | Array, Hash, Str, IpAddr | byte level | refinement / algebra |
| C37 C38 | Conns | connection limits, ping timeouts | invariants over runs with clock readings |
| C40 C71 C72 C73 C74 C75 C76 | Secret, Answers, Online, Who, Whois, Forward, NetInfo | irc-info.c, LIST | exact answers as a function of what the asker may see; non-interference |
| C77 C78 C79 | Metadata, Chaninfo, Njoin | irc-metadata.c, IRC_CHANINFO, IRC_NJOIN | exact state after the line (a named update) and exact lines sent, as for C67 and C68 |
| C80 | NoCrash | all handlers of user commands, all events | `fault` stays false: a relation `Calm` (connections, client kinds and fault kept) proved for every handler by composition, on top of the registry invariants; violations by concrete runs |
| C81 | LineBan | IRC_xLINE, class.c, IRC_KillClient | invariant of the sweep over the client list (`Sweeping`), each step by the theorem about KILL |
| C82 C83 | Dial | the table of configured servers: Check_Servers, New_Server, cb_Connect_to_Server, cb_connserver, Conf_{Unset,Set,Enable,EnablePassive,Disable,Add}Server | a separate model of the table (`Model/Dial`) with its own events; exact effect of a check by induction over the entries, spacing and disabling by invariants of one entry over all runs |
| C84 | ConfFile | Read_Config, Read_Config_File, the handlers of all sections | the reader as a fold over the strings `fgets` returns; shown equal to a fold over the blocks of a line by line specification (`Spec/ConfFile`), then every variable by induction over the assignments; the rest of an overlong line is read as a line of its own (`C84_violated_by_long_comment`) |
| C85 | ConfRange | Read_Config and its handlers, Validate_Config | the bounds (`Spec/ConfRange`) are an invariant of opening a section and of every variable, and hold for the defaults; `C85_start` connects the accepted configuration with the initial states of all other properties; names of configured servers are not validated (`C85_violated_by_server_name`) |
| C86 | ConfSafe | Read_Config_File, Handle_OPTIONS, Handle_SSL, Handle_CHANNEL | failed assertions and writes behind arrays are the flags `bad` of the model; the reader's own flag is false for all files by an invariant, the SSL and channel flags by induction over the assignments under the stated restrictions (partial), which two witnesses show necessary |
| C87 | Refuse | Handle_Request, Validate_Args, Handle_Numeric | an independent table of commands, argument counts and allowed client types (`Spec/Refuse`), compared with the model's table by evaluation; the answers are exact (`Emitted`) |
| C88 | Ping | IRC_PING, IRC_PONG | the step is computed for PING here, elsewhere and nowhere and for PONG on its way; the exact lines are stated with `Emitted` |
| C89 | OperCmd | IRC_OPER, IRC_DIE, IRC_REHASH, IRC_RESTART | the step is computed from an independent reading of the credentials (`Spec.Credentials`: first block with that name, password, mask by `Glob`); lines to links and users are stated exactly (`OperTold`, `NoticeTold`) |
| C90 | ModeLocal | IRC_MODE, Channel_Mode | `Spec.ChannelOnly` is a preorder; every arm of the mode loop is shown to stay inside it, the loop by induction over its fuel; C90_limit counts list entries: every arm of the loop either leaves the list alone or adds one entry below the limit |
| C91 | Predef | Channel_InitPredefined, Rehash | one block is shown to create at most one channel (`Spec.CreatedOnly` composes); the modes by induction over the mode loop on plain letters; violation by witness |
| C92 | Resolve | resolve.c, cb_Read_Resolver_Result, cb_Connect_to_Server, cb_connserver | new model `Model/Resolve` with the C library's answers as parameters; child and parent composed, the search for the address by induction over the list, the bytes in the pipe by splitting them into addresses |
| C93 | Io | io.c (epoll, select) | new model `Model/Io` with the kernel's set as part of the state and arbitrary callbacks; the state agrees with what is told from the history of calls (invariant, one lemma per call); rounds by induction over the events reported and over the loop of `select()` with the number of bits left |
| C94 | Encoding | conn-encoding.c, irc-encoding.c, Conn_WriteStr with ICONV; iconv() is a parameter | invariant of the handles over all histories; the conversion of lines by list lemmas; three violations by witness (overflow of the converter's buffer, lines without CR LF, leaked handles) |
| C95 | Encoding | Send_Message with Conn_EncodingFrom: the message is in the converter's static buffer | induction over the targets; a violation by witness (two targets) |
| C96 | Start | NGIRCd_Init: root directory, user and group IDs, working directory; Linux semantics of setuid/setgid/setgroups | composition of the steps; violations by witness (no ServerGID, invalid ServerUID, set-user-ID file, relative ChrootDir) |
| C97 | Signals | signal mask, pending signals, nested handlers, the pipe and its callback (POSIX: the mask is restored when a handler returns) | invariants of the mask, of what is still owed and of the room in the pipe; a decreasing measure; violations by witness (signals are not blocked; full pipe) |
| C98 | Zip | both ends of a compressed link, zlib a parameter with a law (`Spec.Lawful`) | invariants over the history: sent ++ write buffer ++ packed rest (sender), executed ++ read buffers (receiver); composition for the link; violations by witness (split CR LF, stall at the command limit, write buffer without limit) |
| C99 | Tls | an established TLS connection: conn-ssl.c read/write/want flags, `Conn_Handler`'s watch rules, the library by its documented interface | invariant over all events (histories = prefixes, rest in the buffers); one-round progress theorems under stated conditions; four violations by witness |
| C100 | Snprintf | the state machine of `dopr`, `fmtstr`, `fmtint`, the bounded output | invariant of the output buffer for all formats; rendering of formats by pieces (`Spec.Piece`, the C standard) and induction over the pieces; three violations by witness |
| C101 | Help | reading a text file, the loop of `Help`, `IRC_HELP` | help files as lists of articles (`Spec.Article`), induction over the articles; violation by witness |
| C48 | Topic | TOPIC | decision logic |
| C49 C68 C70 | ServerLink, Relay, Burst | SERVER, link burst | decision logic; exact output |
| C50 C67 C69 | Kill, Introduce, Welcome | NICK collision, introductions, end of registration | exact effect and output |
| C52 C55 C56 | Queries, Stay | all commands | frame theorems over the command table |
| C59 | Wallops | AWAY | exact effect and output |

"Exact output" theorems state the *list of lines leaving on every connection* (`Emitted`,
`onConn`), so that a missing, duplicated, misdirected or wrongly attributed line breaks
them.

## Partial properties

C02, C03, C04, C43 are false as stated in English about the code; the theorem with the
suffix `_partial` (or the positive theorem with its guard) states what holds, and
theorems named `..._violat...` exhibit the inputs for which the full statement fails.

## Trusted base

* Lean's kernel.  `lake build` checks everything; no `native_decide`, no `bv_decide`, no
  axioms of our own.  Every theorem depends on at most `propext`, `Classical.choice`,
  `Quot.sound`.  `decide +kernel` is used for the examples on concrete networks and for
  facts about the closed command table; it is evaluated by the kernel.
* The tie between the model and the C code is reading: every definition cites the file
  and lines it models.
* The statements in `Spec/`.

### Not modelled

Of conf.c: messages about errors, ServerUID, ServerGID, Bind, the MOTD (text files and HELP are `Model/Help`), the
search of the include directory (the contents of its files are arguments), Conf_Test.  The file reader is
`Model/ConfFile`; the server model takes an arbitrary value of type `Conf`, `Cfg.conf` connects the two.
io.c: the backends kqueue, poll and /dev/poll (epoll and select are `Model/Io`).  log.c, ngircd.c except
NGIRCd_Init (`Model/Start`), sighandlers.c except
the signals themselves (`Model/Signals`), proc.c, the fork of the resolver (`Model/Resolve` models what it finds; in the server
model its answer is an event, without IDENT), conn-ssl.c except established connections (`Model/Tls`), conn-zip.c except its buffers (`Model/Zip`), pam.c, SSL
certificates, portab/ except strlcpy/strlcat and vsnprintf (`Model/Snprintf`, without floating point).

### Simplifications inside the modelled part

* Logging and log notices (&SERVER, user modes 's' and 'c') are not modelled.
* Lines are structures (prefix, command, arguments); byte-level output, length limit and
  CR LF are the subject of `ConnWrite`.  NAMES, NJOIN, WHOIS channel lists, which the code
  splits over several lines, are one line.
* Writes never fail inside a handler: a lost connection is a separate event.  malloc
  succeeds (except in `Array`).
* Penalties only in `ConnRead`.  Lines on not yet established sockets are allowed (more
  behaviour than the code).
* The lazily generated cloaked host is computed, not cached; it is not announced by METADATA
  at the moment of generation.  A user that is its own introducer (PASS quirk) loses its generated cloak in its QUIT line.
* `Conf.servers` lists only configured slots, and is kept on rehash.  SSLConnect of server
  entries is not modelled; host, port, flags and waiting times are only in `Model/Dial`.
* Ban reason formatting, help text, STATS message counters, RPL_STATSCONN, version and date
  texts, idle times are not modelled.  atoi has no overflow.
* `rand()` is an arbitrary number given with the event; key files and the text of addresses
  are part of the environment; getaddrinfo/getnameinfo are environment.
* SQUIT of this server by a peer, dangling `topserver`, empty-argument over-read, the format
  string in ISON/USERHOST and other undefined behaviour set `fault`.
* The assertion on the nick length in Client_ID is not modelled.

## Deviations found while modelling (stated as theorems where the property is affected)

Masks ending in `**` or with a backslash behind a wildcard (C02); 511-byte lines depend on the
packet split (C04); CTCP behind an earlier colon passes (C43); a peer can duplicate nicks with
`!` (C12), leave dangling memberships (C16), create memberless channels (C17), duplicate mode
letters (C41); an outgoing connection accepts numeric 376 without PASS/SERVER (C49); secret
channels leak through WHO/NAMES with case variants (C40); `%` in a nick reaches a format string
in ISON/USERHOST (C72); with character conversion, texts that grow overflow the converter's buffer,
long converted lines lose CR LF, handles leak, and messages to several targets can arrive in the
encoding of another receiver (C94, C95).
