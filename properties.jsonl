{"id": "C01", "title": "Mask matching is sound", "statement": "A mask (ban, invite, exception, K-/G-line, WHO, LIST, operator host mask) is only ever reported to match a text when the text can be obtained from the mask by replacing every '*' by some string and every '?' by one character; '[' ']' and '\\' have no magic meaning.", "quantifier": "every pattern and every text, of any length", "why_tests_cant": "patterns and texts are unbounded; a single spurious match lets a banned or foreign user through", "anchors": ["src/ngircd/match.c: Match, Matche, Matche_After_Star"]}
{"id": "C02", "title": "Mask matching is complete", "statement": "A mask matches every text that can be obtained from it by replacing '*' and '?'. (The code violates this for masks ending in two or more stars and for a backslash right after a wildcard; the partial theorem covers all the other masks, two more theorems prove the violations.)", "quantifier": "every pattern and text", "why_tests_cant": "unbounded inputs; the failing masks are not ones a tester thinks of", "anchors": ["src/ngircd/match.c: Matche, Matche_After_Star"]}
{"id": "C03", "title": "Case-insensitive matching ignores case", "statement": "The outcome of a case-insensitive match does not change when ASCII letters of mask or text change case, and agrees with wildcard matching of the lower-cased strings, for masks and texts below the 512 byte line limit; a list of masks matches iff one of its trimmed members does.", "quantifier": "every mask, text, separator-delimited list and recasing", "why_tests_cant": "unbounded inputs", "anchors": ["src/ngircd/match.c: MatchCaseInsensitive, MatchCaseInsensitiveList", "src/tool/tool.c: ngt_LowerStr, ngt_TrimStr"]}
{"id": "C04", "title": "Input framing does not depend on packet boundaries", "statement": "The commands executed for a connection are exactly the non-empty lines of the received byte stream, in order, each once, no matter how the network splits the stream into reads, and no matter how penalties and the per-call command limit interrupt processing: at any time the executed commands are a prefix of the stream's lines and nothing is lost or duplicated.", "quantifier": "every byte stream without NUL bytes and with lines of at most 510 bytes, every split into reads, every schedule of buffer-handling calls and clock values", "why_tests_cant": "the number of ways to fragment a stream and interleave it with throttling is unbounded", "anchors": ["src/ngircd/conn.c: Read_Request, Handle_Buffer"]}
{"id": "C05", "title": "Over-long input lines are never executed", "statement": "No command line longer than 512 bytes (including its terminator) is ever executed; when such a line is at the head of the input the connection is closed instead.", "quantifier": "every buffer content and schedule", "why_tests_cant": "boundary depends on terminator form and buffer content", "anchors": ["src/ngircd/conn.c: Handle_Buffer"]}
{"id": "C06", "title": "Every line sent is a legal IRC line", "statement": "Every message written to a connection is at most 512 bytes including exactly one trailing CR LF; texts of up to 510 bytes are sent unmodified, longer ones are sent as their first 505 bytes followed by '[CUT]'.", "quantifier": "every message text, of any length", "why_tests_cant": "unbounded inputs; one off-by-one breaks peers", "anchors": ["src/ngircd/conn.c: Conn_WriteStr"]}
{"id": "C07", "title": "Output is delivered in order, without loss or duplication, and bounded", "statement": "The bytes written to the socket followed by the bytes still pending are exactly the concatenation of the accepted messages, for every pattern of partial writes; pending output stays below 32 KiB (64 KiB for server links), otherwise the connection is closed.", "quantifier": "every sequence of messages and every behaviour of write()", "why_tests_cant": "partial-write schedules are unbounded", "anchors": ["src/ngircd/conn.c: Conn_Write, Handle_Write"]}
{"id": "C08", "title": "Message parsing round trip", "statement": "A request rendered in IRC syntax (optional prefix, command, middle arguments without spaces or leading ':', optional trailing argument) is parsed back to the same prefix, command and argument list.", "quantifier": "every prefix, command and list of up to 15 arguments that RFC syntax can express", "why_tests_cant": "unbounded inputs", "anchors": ["src/ngircd/parse.c: Parse_Request"]}
{"id": "C09", "title": "Parsed requests are well formed", "statement": "For every input line the parser either rejects it or yields a request with at most 15 arguments, whose command, prefix and middle arguments contain no space; only the last argument may contain spaces.", "quantifier": "every input line", "why_tests_cant": "must hold for hostile input of any shape", "anchors": ["src/ngircd/parse.c: Parse_Request"]}
{"id": "C10", "title": "Commands cannot be sent in someone else's name", "statement": "A request from a registered connection is only handed on with a prefix naming a client that is reached through that very connection; a user using another client's name is disconnected, a server's spoofed request is ignored.", "quantifier": "every connection, prefix and client table", "why_tests_cant": "spoofing attempts range over all network topologies and prefixes", "anchors": ["src/ngircd/parse.c: Validate_Prefix"]}
{"id": "C11", "title": "Commands run only for the connection types they allow", "statement": "A command handler runs only if the type of the connection is among the types the command table lists for it and the number of arguments lies within the table's bounds; an unregistered connection can thereby run only CAP, ERROR, NICK, NOTICE, PASS, PONG, QUIT, SERVER, SERVICE, USER, WEBIRC, GET and POST.", "quantifier": "every command name, argument count and connection type", "why_tests_cant": "full cross product of commands, arities, types, and of command names in any letter case", "anchors": ["src/ngircd/parse.c: My_Commands, Handle_Request"]}
{"id": "C12", "title": "Nicknames are unique network-wide", "statement": "As long as linked servers obey the server protocol (introduce proper names), at any time no two clients known to the server (users, services, servers) carry the same name, comparing case-insensitively; users alone can never break this.", "quantifier": "every history of connects, registrations, nick changes, remote introductions and disconnects whose remote names are well formed", "why_tests_cant": "history dependent; depends on lookups by hash", "anchors": ["src/ngircd/client.c: Client_Search, Client_CheckNick, Client_CheckID, Client_SetID", "src/ngircd/irc-login.c: IRC_NICK"]}
{"id": "C13", "title": "Looking up a client finds exactly the client with that name", "statement": "A lookup by name returns the client whose name equals the given name (up to a '!' and case-insensitively) and nothing else, in every reachable state (peers obeying the server protocol); the hash used to speed up the lookup never changes the answer, whatever peers send. The same for channels.", "quantifier": "every registry state reachable through the API and every name", "why_tests_cant": "hash collisions and stale hashes are never hit by tests", "anchors": ["src/ngircd/client.c: Client_Search, Client_SetID", "src/ngircd/hash.c: Hash"]}
{"id": "C14", "title": "Accepted nicknames are well formed", "statement": "A nickname accepted from a user is non-empty, shorter than the configured maximum, does not start with a digit, '-' or ';', and contains only the RFC characters and ';', so it can be used unambiguously as prefix, mask part and argument; a NICK with any other name changes nothing.", "quantifier": "every byte string", "why_tests_cant": "all strings", "anchors": ["src/ngircd/client.c: Client_IsValidNick"]}
{"id": "C15", "title": "Registration is complete before a user exists", "statement": "A connection becomes a registered user only by a line of its own, after it has sent both NICK and USER and the configured server password with PASS; no capability negotiation it began is open (it ends by its CAP END only), no answer to the authentication PING, if configured, is outstanding (the number changes only by PONG with that number, or is redrawn by NICK), and it matches no K-/G-line. (Peers obeying the server protocol.)", "quantifier": "every sequence of commands on a new connection", "why_tests_cant": "order and interleaving of the login commands is unbounded", "anchors": ["src/ngircd/irc-login.c: IRC_PASS, IRC_NICK, IRC_USER, IRC_PONG", "src/ngircd/irc-cap.c: IRC_CAP", "src/ngircd/login.c: Login_User, Login_User_PostAuth"]}
{"id": "C16", "title": "Channel membership is consistent", "statement": "Every membership refers to an existing channel and a client is member of a channel at most once, whatever peers send; as long as peers obey the server protocol every membership refers to an existing user or service, and a client that leaves the network is a member of no channel.", "quantifier": "every history of joins, parts, kicks, quits and kills", "why_tests_cant": "history dependent", "anchors": ["src/ngircd/channel.c: Add_Client, Remove_Client, Channel_Quit, Channel_Part, Channel_Kick"]}
{"id": "C17", "title": "Channels exist exactly as long as needed", "statement": "Every channel has at least one member or is persistent (+P), except after a MODE -P on an empty channel or a peer's CHANINFO for an unknown channel; channel names are unique case-insensitively and well formed while peers obey the server protocol.", "quantifier": "every history of operations by local users", "why_tests_cant": "history dependent", "anchors": ["src/ngircd/channel.c: Remove_Client, Channel_Join, Channel_Create, Delete_Channel"]}
{"id": "C18", "title": "Join restrictions are enforced", "statement": "A local user gets on an existing channel by JOIN only if it names the channel and either is an IRC operator or: it is not banned (or is excepted or invited), is invited if the channel is invite-only, gives a fitting key, the channel is not full, and it meets +O/+z/+R; a JOIN never takes a user beyond MaxJoins channels; whoever meets all this is let in; and a client gets on a channel only by its own JOIN, by the channels it is put on when it registers, or by a server link.", "quantifier": "every channel state, client and JOIN argument", "why_tests_cant": "cross product of channel modes, lists, keys and clients", "anchors": ["src/ngircd/irc-channel.c: join_allowed, IRC_JOIN"]}
{"id": "C19", "title": "Channel creator becomes operator, nobody else does by joining", "statement": "A local user that creates a channel by JOIN becomes its channel operator (not for modeless channels); on an existing channel the newcomer receives no privileges (except for IRC operators on +P channels, if so configured); a JOIN leaves all other memberships as they are.", "quantifier": "every channel state and joining client", "why_tests_cant": "history dependent", "anchors": ["src/ngircd/irc-channel.c: IRC_JOIN, join_set_channelmodes"]}
{"id": "C20", "title": "Who may speak in a channel", "statement": "A PRIVMSG or NOTICE to a channel (a plain channel name no client bears as nick or user name) is delivered if and only if its sender may speak there: on +n channels members only; on +M channels registered nicks and IRC operators only; clients without voice or higher rank not on +m channels and not when banned without exception. Otherwise nobody gets it, nothing changes, and only a PRIVMSG is answered, with one error line.", "quantifier": "every channel state, ban/exception list and sender", "why_tests_cant": "cross product of modes, lists and membership", "anchors": ["src/ngircd/channel.c: Can_Send_To_Channel, Channel_Write"]}
{"id": "C21", "title": "Channel messages reach every member exactly once", "statement": "A PRIVMSG or NOTICE to a channel by somebody who may speak there is sent exactly once over each connection (of a local member, or of a server link behind which a member lives) except the one it came from, and over no other connection; the text is unchanged and the sender is shown.", "quantifier": "every network topology, channel and sender", "why_tests_cant": "topologies and memberships are unbounded", "anchors": ["src/ngircd/irc-write.c: IRC_WriteStrChannelPrefix, Send_Marked_Connections", "src/ngircd/channel.c: Channel_Write"]}
{"id": "C22", "title": "Quit/nick notifications reach related clients exactly once", "statement": "When a local user quits, loses its connection or changes its nick, and when a peer announces that one of its users quits or changes its nick, every local client sharing a channel with it is told exactly once, with the user's (cloaked) mask, every other server link is told exactly once, and no other connection gets anything (except its own, or an answer to a peer whose announcement is refused); a user asking for a nick it may not have is told so and nobody else notices.", "quantifier": "every membership relation", "why_tests_cant": "unbounded membership relations; sharing several channels must not duplicate", "anchors": ["src/ngircd/irc-write.c: IRC_WriteStrRelatedPrefix"]}
{"id": "C23", "title": "Only channel operators change channel modes", "statement": "A MODE command of a local user changes only what its rank on that channel (half-op, op, admin, owner as required for the mode), or its being an IRC operator with override, entitles it to at the time the command arrives; below half-op nothing at all. Apart from that settings and ranks change only when a channel is founded, by the server itself on registration or reload of the configuration, and by server links, which are trusted.", "quantifier": "every mode string, argument list, channel state and rank", "why_tests_cant": "mode strings are unbounded; each letter has its own rule", "anchors": ["src/ngircd/irc-mode.c: Channel_Mode"]}
{"id": "C24", "title": "Kicks respect ranks", "statement": "A KICK of a local user removes only members it has named from channels it has named and is on, and only if its rank permits (owners: everybody; admins: all but owners; operators: below admin; half-ops: below operator; IRC operators with override: everybody), and never, unless it is an IRC operator, from channels with +Q, protected users (+q) or services; whoever may, removes; a failed kick changes nothing.", "quantifier": "every pair of ranks, modes and membership", "why_tests_cant": "cross product of ranks and modes", "anchors": ["src/ngircd/channel.c: Channel_Kick"]}
{"id": "C25", "title": "Users cannot give themselves privileges with MODE", "statement": "No MODE command of a user on itself can set operator ('o'), service ('q') without being operator, registered ('R'), away ('a') flags, or clear 'r' (restricted); modes of other users cannot be changed.", "quantifier": "every mode string", "why_tests_cant": "mode strings are unbounded", "anchors": ["src/ngircd/irc-mode.c: Client_Mode"]}
{"id": "C26", "title": "Operator status only with matching credentials", "statement": "A client gains IRC operator status through OPER only when a configured operator entry has exactly that name, exactly that password and a host mask matching the client; otherwise its modes stay unchanged.", "quantifier": "every operator table, name, password and client", "why_tests_cant": "all combinations of entries, including equal names", "anchors": ["src/ngircd/irc-oper.c: IRC_OPER"]}
{"id": "C27", "title": "Administrative commands need operator rights", "statement": "DIE, RESTART, REHASH, CONNECT, DISCONNECT, SQUIT by users, GLINE/KLINE, and WALLOPS and KILL by local users have no effect unless the originating client is an IRC operator, and for operators of other servers only when remote operators are allowed.", "quantifier": "every client, prefix and configuration", "why_tests_cant": "cross product", "anchors": ["src/ngircd/op.c: Op_Check, Op_NoPrivileges", "src/ngircd/irc-oper.c"]}
{"id": "C28", "title": "Mask lists behave as finite maps", "statement": "Adding, removing, expiring and counting entries of ban/invite/exception/K-/G-line lists behaves like a finite map keyed by the mask (case-insensitive): no duplicates, last write wins for expiry and reason, deletion removes exactly that mask, expiry removes exactly the entries whose time has passed.", "quantifier": "every sequence of list operations", "why_tests_cant": "history dependent", "anchors": ["src/ngircd/lists.c: Lists_Add, Lists_Del, Lists_Expire, Lists_CheckDupeMask, Lists_Count"]}
{"id": "C29", "title": "Ban masks are normalised", "statement": "Every mask given by a user is completed to the nick!user@host form: the result always contains '!' and '@', masks already in that form are kept, and normalising twice changes nothing.", "quantifier": "every byte string that fits the buffer", "why_tests_cant": "all strings; position and order of '!' and '@'", "anchors": ["src/ngircd/lists.c: Lists_MakeMask"]}
{"id": "C30", "title": "One-time invitations admit once", "statement": "An invitation entry marked one-time is removed when it is used and admits the invited client for one join check only; permanent entries stay.", "quantifier": "every list state and client", "why_tests_cant": "history dependent", "anchors": ["src/ngircd/lists.c: Lists_CheckReason"]}
{"id": "C31", "title": "Server tokens are unique", "statement": "Every server known gets a token different from the tokens of all other servers, at least 2, and the smallest one available.", "quantifier": "every history of server introductions and removals", "why_tests_cant": "history dependent", "anchors": ["src/ngircd/client.c: Generate_MyToken"]}
{"id": "C32", "title": "A lost server link removes everything behind it", "statement": "When a server link goes down exactly the servers, users and services reached through it are removed, together with all their channel memberships, and every other client stays.", "quantifier": "every network topology", "why_tests_cant": "topologies are unbounded; removal is recursive", "anchors": ["src/ngircd/client.c: Client_Destroy"]}
{"id": "C33", "title": "User and server counters are exact", "statement": "The numbers LUSERS reports (users, services, servers, operators, unregistered connections, channels, local users, services and servers) are exactly the numbers of such clients and channels in the state the command runs in; the reported maxima are at least the present numbers, never fall, and rise only as far as the numbers of users do (plus one transient user a link is introducing).", "quantifier": "every history", "why_tests_cant": "history dependent", "anchors": ["src/ngircd/client.c: Count, MyCount, Adjust_Counters, Client_UserCount"]}
{"id": "C34", "title": "Buffers behave like byte strings and never overflow", "statement": "The dynamic byte buffer behaves like a byte string under append, copy, truncate and move-left; all accesses stay inside the allocation for every size (including arithmetic overflow) and a failed allocation leaves the content intact and is reported.", "quantifier": "every sequence of operations, 64-bit sizes, and every allocation failure pattern", "why_tests_cant": "overflow and allocation failures cannot be provoked in tests", "anchors": ["src/ngircd/array.c"]}
{"id": "C35", "title": "Names differing only in case have equal hashes", "statement": "The hash of a name is the same for all letter-case variants, so a hash comparison can never separate equal names.", "quantifier": "every string", "why_tests_cant": "all strings", "anchors": ["src/ngircd/hash.c: Hash, jenkins_hash"]}
{"id": "C36", "title": "Penalties only grow and are bounded per command", "statement": "Penalty time of a connection never decreases; one penalty adds exactly its seconds (capped by the configured maximum when below 10 s); while the penalty lasts no command of the connection is executed.", "quantifier": "every sequence of penalties and clock readings", "why_tests_cant": "history dependent", "anchors": ["src/ngircd/conn-func.c: Conn_SetPenalty", "src/ngircd/conn.c: Handle_Buffer"]}
{"id": "C37", "title": "Connection limits hold", "statement": "A connection is accepted exactly if it keeps to MaxConnections and MaxConnectionsIP (0: no limit); otherwise it is turned away and nothing changes but the answer. No other event adds connections from outside, so the limits hold in all histories without changes of configuration and without links the server opens itself.", "quantifier": "every history of connects and disconnects", "why_tests_cant": "history dependent", "anchors": ["src/ngircd/conn.c: New_Connection, Count_Connections, Account_Connection"]}
{"id": "C38", "title": "Dead connections are detected, live ones kept", "statement": "The periodic check closes a connection exactly if its registered client has sent nothing since a PING more than PongTimeout ago, or if it is not registered PongTimeout after its last sign of life; it sends a PING exactly if one is due (PingTimeout after the last data, once). Only received data and the check itself change the times noted. A registered client that stays silent is gone once checks have run more than PingTimeout after the last data and more than PongTimeout after that; one that answers in time is kept.", "quantifier": "every sequence of clock readings, reads and checks", "why_tests_cant": "time dependent histories", "anchors": ["src/ngircd/conn.c: Check_Connections, Read_Request"]}
{"id": "C39", "title": "Capability negotiation is atomic", "statement": "CAP REQ with any unknown capability leaves the capabilities as they are and is answered with NAK, once; otherwise the last word on each capability decides and the answer is one ACK; an unregistered client then has to send CAP END; nothing else changes. Capabilities are never enabled without a request of the client.", "quantifier": "every capability string and client state", "why_tests_cant": "all strings, all sequences", "anchors": ["src/ngircd/irc-cap.c: Parse_CAP, Handle_CAP_REQ, Set_CAP_Negotiation"]}
{"id": "C40", "title": "Secret channels stay hidden", "statement": "Every query (LIST, NAMES, WHO, WHOIS, LUSERS, WHOWAS, ...) of a local user that is neither member of a secret channel nor IRC operator is answered exactly as if that channel did not exist. Two exceptions exist and are proved: WHO with the very name of the channel returns nothing but that name, spelled as the channel is; and NAMES without arguments does not list visible users who are on that channel only among the users on no channel. (Peers obeying the server protocol.)", "quantifier": "every server state and requesting client", "why_tests_cant": "cross product of modes, memberships and query masks", "anchors": ["src/ngircd/irc-channel.c: IRC_LIST", "src/ngircd/irc-info.c: IRC_NAMES, IRC_WHO_Channel, IRC_WHOIS_SendReply"]}
{"id": "C41", "title": "Mode strings are duplicate-free sets", "statement": "User, channel and membership mode strings never contain a letter twice (peers obeying the server protocol); adding and deleting reports whether the set changed, and a letter is present after adding (while the buffer has room) and absent after deleting.", "quantifier": "every sequence of additions and deletions", "why_tests_cant": "history dependent; buffer limits", "anchors": ["src/ngircd/client.c: Client_ModeAdd, Client_ModeDel", "src/ngircd/channel.c: Channel_ModeAdd, Channel_ModeDel, Channel_UserModeAdd, Channel_UserModeDel"]}
{"id": "C42", "title": "Bounded string operations", "statement": "Bounded copy and append never write past the destination size, always terminate the string, and keep the longest fitting prefix; trimming is idempotent and removes exactly leading and trailing white space.", "quantifier": "every source, destination and size", "why_tests_cant": "all sizes", "anchors": ["src/portab/strlcpy.c: strlcpy, strlcat", "src/tool/tool.c: ngt_TrimStr, ngt_TrimLastChr"]}
{"id": "C43", "title": "CTCP scrubbing", "statement": "With ScrubCTCP enabled no message carrying a CTCP request other than ACTION is passed on for a user.", "quantifier": "every request line", "why_tests_cant": "all strings", "anchors": ["src/ngircd/parse.c: ScrubCTCP"]}
{"id": "C44", "title": "Message targets are bounded and not repeated", "statement": "A PRIVMSG or NOTICE to a list of targets does what single messages would do, one after another, to at most 25 targets of the list, all of them different (ignoring case), with at most one copy per target and connection unless an IRC operator uses masks; a PRIVMSG goes to all of the first 25 targets, and if there are more, the sender is told.", "quantifier": "every target list", "why_tests_cant": "all strings", "anchors": ["src/ngircd/irc.c: Send_Message"]}
{"id": "C45", "title": "WHOWAS history keeps the most recent departures", "statement": "The WHOWAS store always holds the most recent departures, newest first, never more than 64. Only departures and nick changes add to it: when a user that has been online for 30 seconds or more quits, is lost, changes its nick or quits on a remote server, exactly its record (nick, user, host, server, text and time) is added, unless MorePrivacy is set. WHOWAS answers with the newest entries for the nick first, as many as asked for, and changes nothing.", "quantifier": "every sequence of departures", "why_tests_cant": "history dependent; ring buffer wrap", "anchors": ["src/ngircd/client.c: Client_RegisterWhowas"]}
{"id": "C46", "title": "IP addresses compare and print faithfully", "statement": "Two addresses compare equal iff family and address bytes are equal, independent of port, flow information and scope; setting a port changes nothing else; so the number compared with MaxConnectionsIP is exactly the number of open connections of that address. A printed address never begins with a colon.", "quantifier": "every address", "why_tests_cant": "all addresses", "anchors": ["src/ipaddr/ng_ipaddr.c: ng_ipaddr_ipequal"]}
{"id": "C47", "title": "Parted and kicked clients lose channel privileges", "statement": "After PART or KICK the client is no longer on the channel and holds no rank there, nothing else changes, and rejoining starts without privileges.", "quantifier": "every history", "why_tests_cant": "history dependent", "anchors": ["src/ngircd/channel.c: Remove_Client, Add_Client"]}
{"id": "C48", "title": "Topic protection", "statement": "A local user's TOPIC changes only the topic of the channel named, only if the user is a member (or IRC operator with override) and, on +t channels, half-op or above or an IRC operator; whoever may, sets exactly the topic given (up to 512 bytes). No other command of a user changes a topic.", "quantifier": "every channel state, client and topic", "why_tests_cant": "cross product", "anchors": ["src/ngircd/irc-channel.c: IRC_TOPIC"]}
{"id": "C49", "title": "Server links need matching credentials", "statement": "A connection from outside becomes a server link only by its own SERVER command after PASS, if the first configured server of that name (case-insensitively) expects the password it has sent, that entry is in use for no other connection and no client has the name; whoever meets this is accepted, and otherwise the connection is closed and nobody else is affected. Violated for connections this server opens itself: numeric 376 makes whoever answers a server link without name or password.", "quantifier": "every configuration, name and password", "why_tests_cant": "cross product", "anchors": ["src/ngircd/irc-server.c: IRC_SERVER"]}
{"id": "C50", "title": "A nick collision removes the colliding nick everywhere", "statement": "When a linked server introduces a nick that a user or service here already has (case-insensitively), that holder is removed, every linked server is told to KILL the nick, and the newcomer is not registered; if the name is in use by any other client, the link gets an error and nothing changes. So uniqueness is kept. (Peers obeying the server protocol.)", "quantifier": "every client table and introduction", "why_tests_cant": "history dependent", "anchors": ["src/ngircd/irc-login.c: IRC_NICK", "src/ngircd/irc.c: IRC_CheckNick / collision handling"]}
{"id": "C51", "title": "Private messages reach their addressee only", "statement": "A PRIVMSG or NOTICE to a nickname is sent exactly once, towards the client bearing that nick and to nobody else, with its text unchanged and showing the sender; if the addressee does not accept it (+b, +C, not a user or service), or nobody bears the name, nobody gets it, and only a PRIVMSG is answered, with one error line.", "quantifier": "every reachable state, sender, addressee and text", "why_tests_cant": "cross product of states; leaks are invisible to the sender", "anchors": ["src/ngircd/irc.c: Send_Message"]}
{"id": "C52", "title": "Queries change nothing", "statement": "Commands that ask for information (ADMIN, HELP, INFO, ISON, LINKS, LIST, LUSERS, MOTD, NAMES, PING, SERVLIST, STATS, SUMMON, TIME, TRACE, USERHOST, USERS, VERSION, WHO, WHOIS, WHOWAS) change no client, channel, membership, list, connection or other part of the server state, whoever sends them and with whatever arguments; they only send lines.", "quantifier": "every reachable state, sender and argument list", "why_tests_cant": "all arguments in all states", "anchors": ["src/ngircd/irc-info.c", "src/ngircd/irc-channel.c: IRC_LIST", "src/ngircd/irc-login.c: IRC_PING"]}
{"id": "C53", "title": "What others know of a user changes only by its own doing", "statement": "Apart from what linked servers demand, a registered user stays a registered user while its connection lasts, its host name never changes, and its nick, user name and real name change by its own NICK command only.", "quantifier": "every reachable state and event (peers obeying the server protocol)", "why_tests_cant": "histories; every command of every other client", "anchors": ["src/ngircd/irc-login.c: IRC_NICK, IRC_USER", "src/ngircd/client.c: Client_SetID, Client_SetUser, Client_SetInfo, Client_SetHostname"]}
{"id": "C54", "title": "KILL removes exactly the named client", "statement": "KILL by an IRC operator or a linked server removes exactly the user, service or half-introduced user of that name, with its channel memberships; every other linked server is told with one KILL line showing who asked and why, and the users sharing a channel with it see it quit; KILL for a server, a connection still registering, or a name nobody has changes nothing.", "quantifier": "every reachable state (peers obeying the server protocol), sender, name and reason", "why_tests_cant": "cross product of states; what other servers get is invisible to a test client", "anchors": ["src/ngircd/irc.c: IRC_KILL, IRC_KillClient"]}
{"id": "C55", "title": "Nobody is disconnected by ordinary users", "statement": "Whoever is no longer known after an event was removed by a line of a linked server or IRC operator, by a line of its own, by the loss of the connection it is reached through, or by the timeout and ban checks of the server itself.", "quantifier": "every reachable state and event (peers obeying the server protocol)", "why_tests_cant": "every command of every client in every state", "anchors": ["src/ngircd/conn.c: Conn_Close", "src/ngircd/client.c: Client_Destroy", "src/ngircd/parse.c: Handle_Request"]}
{"id": "C56", "title": "Nobody is removed from a channel by other commands", "statement": "A client ceases to be on a channel only by its own PART or JOIN command, by a KICK, by a command of a linked server, or because it leaves the network.", "quantifier": "every reachable state and event (peers obeying the server protocol)", "why_tests_cant": "every command of every client in every state", "anchors": ["src/ngircd/channel.c: Remove_Client, Channel_Part, Channel_Kick, Channel_Quit"]}
{"id": "C57", "title": "Channel announcements reach exactly those concerned", "statement": "A user's JOIN, PART, TOPIC and KICK are shown exactly once to every local client on the channel (the user itself included; no echo of TOPIC to it but its own), and exactly once to every other server link, except for local ('&') channels, of which no other server is told; nobody else gets anything.", "quantifier": "every reachable state (peers obeying the server protocol), channel, member and text", "why_tests_cant": "topologies and memberships are unbounded; a leak to a non-member is invisible to the sender", "anchors": ["src/ngircd/channel.c: Remove_Client, Channel_SetTopic", "src/ngircd/irc-channel.c: IRC_TOPIC, join_send_topic, join_forward, IRC_JOIN"]}
{"id": "C58", "title": "WALLOPS reaches those who want it", "statement": "A WALLOPS sent by an IRC operator or passed on by a linked server is shown exactly once to every local user with mode w, showing its sender, exactly once to every other server link, and to nobody else; a WALLOPS of anybody else is only answered.", "quantifier": "every reachable state (peers obeying the server protocol), sender and text", "why_tests_cant": "topologies and user modes are unbounded", "anchors": ["src/ngircd/irc-oper.c: IRC_WALLOPS", "src/ngircd/irc-write.c: IRC_SendWallops"]}
{"id": "C59", "title": "AWAY marks exactly the user itself", "statement": "AWAY with a text marks the user as away and keeps the text (127 bytes), AWAY without one removes the mark; the user gets one answer, every linked server exactly one MODE line, nobody else anything, and nothing else changes.", "quantifier": "every reachable state, user and text", "why_tests_cant": "all states and texts; silent changes of other clients are not visible to a test", "anchors": ["src/ngircd/irc-mode.c: IRC_AWAY", "src/ngircd/client.c: Client_SetAway"]}
{"id": "C60", "title": "Invitations are made by those who may, reach the invited only, and admit once", "statement": "INVITE is passed on, exactly once, towards the invited user only, showing who invites, if the channel does not exist or the inviting user is a member (half-op or above on invite-only channels), the channel is not +V and the invited user is not on it (for & channels: is local); the inviting user is told; if the channel is invite-only or the invited user is banned there, the invitation is remembered for one use and covers that user. Otherwise the command is only answered. Nothing else changes.", "quantifier": "every reachable state (peers obeying the server protocol), inviting and invited user and channel name", "why_tests_cant": "cross product of states, ranks, modes and lists", "anchors": ["src/ngircd/irc-op.c: IRC_INVITE", "src/ngircd/channel.c: Channel_AddInvite"]}
{"id": "C61", "title": "Channel mode changes take effect exactly as asked and are announced exactly once", "statement": "When a local user entitled to it sends MODE on a channel, then: letters without argument are set or cleared exactly as asked and nothing else changes; a rank is given to or taken from exactly the member named; a key becomes the channel's key and a limit its limit; a mask, its missing parts filled with '*', is put on or taken off the ban, exception or invite list, at most 50 entries on the three lists together, a known mask is not added twice. If something changed, the user himself, every other local member and (except on local channels, for letters, ranks, keys and limits) every other server link gets exactly one MODE line with exactly the change, and nobody else gets anything; if nothing changed nobody gets anything.", "quantifier": "every polite run, every state, every local user, channel, letter list, mask, key and limit", "why_tests_cant": "the announcement depends on the membership, on the local/remote split and on the previous modes, lists and ranks; unit tests fix them", "anchors": ["src/ngircd/irc-mode.c:Channel_Mode", "src/ngircd/irc-mode.c:Add_To_List", "src/ngircd/irc-mode.c:Del_From_List", "src/ngircd/irc-mode.c:Send_ListChange", "src/ngircd/irc-write.c:IRC_WriteStrChannelPrefix", "src/ngircd/lists.c:Lists_MakeMask"]}
{"id": "C62", "title": "User mode changes take effect exactly as asked and are announced to the user and every server", "statement": "When a local user sends MODE for itself with letters it may change, exactly those are set or cleared and nothing else changes; if any of them changed, the user gets exactly one MODE line with exactly the letters that changed (and its new public host name if mode x was among them), every server link gets exactly one such line, and nobody else gets anything; if none changed nobody gets anything. A query is answered with the user's own modes.", "quantifier": "every polite run, every state, local user and list of distinct letters", "why_tests_cant": "depends on the modes set before, on the configuration and on all server links at that moment", "anchors": ["src/ngircd/irc-mode.c:Client_Mode", "src/ngircd/client.c:Client_ModeAdd", "src/ngircd/client.c:Client_ModeDel"]}
{"id": "C63", "title": "Mode x hides a user's real host name from others", "statement": "What other clients see as the sender of a user's lines is nick!user@host where the host is the real one only without mode x; with mode x it is the stored cloak, or the one made from a hash if so configured, or the name of the user's server, and (except for the hashed form) does not depend on the real host name at all.", "quantifier": "every state, every client", "why_tests_cant": "a leak for one combination of modes and configuration is enough", "anchors": ["src/ngircd/client.c:Client_MaskCloaked", "src/ngircd/client.c:Client_HostnameDisplayed", "src/ngircd/client.c:Client_UpdateCloakedHostname"]}
{"id": "C64", "title": "A channel's key and limit are told to members only", "statement": "A user that asks for the modes of a channel gets exactly two lines: the mode letters, followed by the limit and the key if and only if the user is on the channel, and the creation time; nothing changes.", "quantifier": "every polite run, every state, local user and channel", "why_tests_cant": "depends on membership and on the modes set in the past", "anchors": ["src/ngircd/irc-mode.c:Channel_Mode_Answer_Request"]}
{"id": "C65", "title": "WEBIRC needs the configured password", "statement": "A WEBIRC command of an unregistered client changes the client's user name, host name and address, to exactly the values given, if and only if a WEBIRC password is configured and the command carries it; otherwise the client gets an error and nothing changes.", "quantifier": "every reachable state, connection and argument", "why_tests_cant": "an unconfigured (empty) password must not be accepted either", "anchors": ["src/ngircd/irc-login.c:IRC_WEBIRC", "src/ngircd/client.c:Client_SetHostname", "src/ngircd/client.c:Client_SetUser"]}
{"id": "C66", "title": "A netsplit is told to everybody concerned exactly once", "statement": "When the link to a server is lost, or a linked server reports with SQUIT that a server behind it has gone, every other server link gets exactly one SQUIT for each lost server and no QUIT for the users on them, every local client gets exactly one QUIT for each lost user it shared a channel with, the reason names the two servers between which the network broke, and nobody is sent anything else; nothing goes back to the lost side except, when closing, one ERROR line.", "quantifier": "every reachable state that is not shutting down, every link, every loss reason, every tree of servers and users behind the lost server, every SQUIT by a linked server", "why_tests_cant": "depends on the recursive removal over arbitrary server trees and memberships", "anchors": ["src/ngircd/client.c:Client_Destroy", "src/ngircd/client.c:Destroy_UserOrService", "src/ngircd/conn.c:Conn_Close", "src/ngircd/irc-server.c:IRC_SQUIT", "src/ngircd/channel.c:Channel_Quit"]}
{"id": "C67", "title": "Introductions of users and services reach the whole network", "statement": "When a linked server introduces a user or service (NICK with seven arguments, SERVICE, or NICK and USER of the old protocol) under a free name and for a server it has announced, the server adds exactly this client, with the data given cut to its limits (as a service if the configuration of the link says so), changes nothing else, forwards the introduction once to every other link in the form that link understands (RFC 1459 or newer, SERVICE and METADATA only if the peer supports them, the home server named by this server's own token), and sends nothing to anybody else, in particular not back.", "quantifier": "all reachable states with any number of links and servers, all introductions, all link capabilities", "why_tests_cant": "The number of links, their protocol variants and the data are unbounded; the claim is about every line sent and every client kept.", "anchors": ["src/ngircd/client.c:Client_Introduce", "src/ngircd/client.c:Client_Announce", "src/ngircd/irc-login.c:IRC_NICK", "src/ngircd/irc-login.c:IRC_USER", "src/ngircd/irc-login.c:IRC_SERVICE"]}
{"id": "C68", "title": "Announcements of servers reach the whole network and loops are broken", "statement": "When a linked server announces a server behind it under a free name, exactly this server is added, with a token nobody else has, and every other link is told once, with that token and the distance increased by one; nobody else is told anything. If the name is already in use, the link is closed, everything behind it is removed, and everybody is told as for any netsplit.", "quantifier": "all reachable states and all SERVER commands of linked servers", "why_tests_cant": "The topology and the number of links are unbounded; tokens must be fresh in every history.", "anchors": ["src/ngircd/irc-server.c:IRC_SERVER", "src/ngircd/client.c:Client_CheckID", "src/ngircd/client.c:Client_NewRemoteServer"]}
{"id": "C69", "title": "Completing the registration makes the client a user everywhere", "statement": "When a client completes its registration with this server (USER after NICK, NICK after USER, CAP END, or the PONG it was asked for) and nothing stands against it (right password, PING answered, no capability negotiation open, no GLINE or KLINE covering it, a valid free nick), it becomes a user with exactly the identity it sent (cut to the sizes kept), every linked server gets exactly one complete introduction of it coming from this server, the client gets the complete welcome (001 to 005, true LUSERS numbers, MOTD) in this order, and nobody else gets anything; no other client, channel or ban changes.", "quantifier": "every reachable state with any number of links (old and new protocol) and clients, every such client, every line of the four kinds (servers with default user modes or autojoin channels excepted)", "why_tests_cant": "the introduction has to reach every link of any network, in the protocol of each, from any state; tests look at one or two links", "anchors": ["src/ngircd/login.c:Login_User", "src/ngircd/login.c:Login_User_PostAuth", "src/ngircd/client.c:Client_Introduce", "src/ngircd/irc-login.c:IRC_USER", "src/ngircd/irc-login.c:IRC_NICK", "src/ngircd/irc-login.c:IRC_PONG", "src/ngircd/irc-cap.c:IRC_CAP", "src/ngircd/irc-info.c:IRC_Show_MOTD"]}
{"id": "C70", "title": "A new link gets the whole network, and the network gets the new link", "statement": "When a configured peer completes the link handshake (SERVER with the right password, or the end of its message of the day on a connection this server opened), it is registered with a token no other server has, and is sent: the greeting (PASS, SERVER) if it connected to us; every other server exactly once, nearer servers first, each on behalf of the server that introduced it; then every user and service, every channel that is not local with its modes, key, limit, topic and all members with their ranks, the network bans and the ban/exception/invite lists (as far as its protocol flags allow), and a final PING. Every other link is told of the new server exactly once; users are told nothing; no other state changes.", "quantifier": "every reachable state, every such peer and line, any number of servers, users, channels, members and list entries", "why_tests_cant": "The burst enumerates all state; tests with a few servers and channels cannot show that nothing is left out, duplicated or sent in the wrong form for every network.", "anchors": ["src/ngircd/numeric.c:IRC_Num_ENDOFMOTD", "src/ngircd/numeric.c:Announce_Server", "src/ngircd/numeric.c:Announce_Channel", "src/ngircd/numeric.c:Synchronize_Lists", "src/ngircd/numeric.c:Send_CHANINFO", "src/ngircd/irc-server.c:IRC_SERVER"]}
{"id": "C71", "title": "NAMES and LIST show exactly what the client may see", "statement": "NAMES for a list of channels answers, for each name in turn, with one line naming exactly the members the client may see (all if it is a member itself; otherwise, unless the channel is secret or privacy is configured, those that are not invisible), each with the signs of its ranks (all of them only if the client asked for multi-prefix), and an end-of-names line; without argument it does so for all channels and then for the visible users that are on no channel. LIST answers with exactly the channels matching the masks that are not secret, or of which the client is a member or which an IRC operator asks for, with their member counts and topics, up to the configured limit, and tells the client that the limit was reached exactly if there are more. Nothing else happens.", "quantifier": "every reachable state, every registered user and NAMES or LIST line without target server", "why_tests_cant": "The answer depends on all memberships, modes and capabilities; tests see a few channels only and cannot show that no member is left out, shown twice or leaked in any state.", "anchors": ["src/ngircd/irc-info.c:IRC_NAMES", "src/ngircd/irc-info.c:IRC_Send_NAMES", "src/ngircd/irc-channel.c:IRC_LIST"]}
{"id": "C72", "title": "ISON and USERHOST name exactly the users that are on the network", "statement": "ISON answers with one line holding the names of exactly those users among the names asked for (also several in one argument) that are on the network, in the order asked, and USERHOST with the entries nick[*]=(+|-)user@host for the first five, telling IRC operators, away users and the public (cloaked) host name, cut off only where the line is full; nothing else happens. This holds as long as no name or host in the answer contains a per cent sign: names chosen by local users never do, but a peer can introduce one, and then the answer text is used as a format string (proved as a violation).", "quantifier": "every state reachable with peers following the protocol, every registered user and ISON or USERHOST line", "why_tests_cant": "Depends on the whole client registry and on buffer limits for any number of names; the format-string case needs a crafted remote user.", "anchors": ["src/ngircd/irc-info.c:IRC_ISON", "src/ngircd/irc-info.c:IRC_USERHOST"]}
{"id": "C73", "title": "WHO shows exactly the matching users the client may see", "statement": "WHO for a channel answers with one line for each member the client may see (all for members and IRC operators, else those not invisible, none for a secret channel), with user name, public host name, server, nick, away and operator flags, rank signs, hop count and real name; WHO with a mask or without answers in the same form with the first 25 users whose nick, real name, server or host name match and that are not invisible, share a channel with the client or were asked for by their nick, and tells the client if there are more; with the argument \"o\" only IRC operators. Then comes the end line; nothing else happens.", "quantifier": "every state reachable with peers following the protocol, every registered user and WHO line", "why_tests_cant": "Visibility depends on all memberships and modes; leaks show only in combinations tests do not try.", "anchors": ["src/ngircd/irc-info.c:IRC_WHO", "src/ngircd/irc-info.c:IRC_WHO_Channel", "src/ngircd/irc-info.c:IRC_WHO_Mask", "src/ngircd/irc-info.c:write_whoreply"]}
{"id": "C74", "title": "WHOIS tells exactly what the client may know", "statement": "WHOIS answers, for each of the first three names or (at most one) masks, with what is known of the user: name, public host name, real name, server, the channels it is on that are not secret or that the client is on too (unless the user hides them and the client is no IRC operator), service, operator, bot, TLS, registered-nick and account marks, idle line and away message; real host name and modes only for the user itself and IRC operators; a mask shows at most ten visible users; unknown names get an error. Then comes the end line; nothing else happens.", "quantifier": "every state reachable with peers following the protocol, every registered user and WHOIS line without target server", "why_tests_cant": "What may be shown depends on all memberships and modes of both clients; a leak in any combination would be a breach that example tests miss.", "anchors": ["src/ngircd/irc-info.c:IRC_WHOIS", "src/ngircd/irc-info.c:IRC_WHOIS_SendReply"]}
{"id": "C75", "title": "Queries naming another server are passed on, not answered here", "statement": "When a user (local, or behind a linked server) sends ADMIN, INFO, MOTD, TIME, VERSION, LUSERS, NAMES or STATS with a final argument that designates a server other than this one - by its name, by a mask, or by the nick of a user on it - exactly one line leaves the server: the same command with the same leading arguments and the resolved server's name, in the name of the asker, on the connection towards that server. If the argument designates no known server, exactly one line leaves: the 'no such server' numeric to the asker.", "quantifier": "every reachable network state, every such command, every asker and every argument", "why_tests_cant": "Depends on the routing tree and on name/mask lookup over arbitrary networks", "anchors": ["src/ngircd/irc-info.c:IRC_ADMIN", "src/ngircd/irc-info.c:IRC_INFO", "src/ngircd/irc-info.c:IRC_MOTD", "src/ngircd/irc-info.c:IRC_TIME", "src/ngircd/irc-info.c:IRC_VERSION", "src/ngircd/irc-info.c:IRC_LUSERS", "src/ngircd/irc-info.c:IRC_NAMES", "src/ngircd/irc-info.c:IRC_STATS"]}
{"id": "C76", "title": "LINKS, SERVLIST, STATS, TRACE and MOTD answer exactly, operators' lists only to operators", "statement": "A local user asking this server gets: for LINKS exactly one line per server of the network whose name matches the mask (with the server it is behind, its distance and its text); for SERVLIST one line per matching service; for STATS g/G/k/K every G- or K-line and for STATS L every connection if it is an IRC operator and otherwise only a refusal, for STATS l the server links and its own connection; for TRACE the directly linked servers and the IRC operators connected here; for MOTD the configured lines. Nothing else is sent to anybody and nothing changes. (LINKS needs every known server's uplink to be known: a theorem shows a run in which a peer withdraws an intermediate server and LINKS then uses freed memory.)", "quantifier": "every reachable network, every user and every argument", "why_tests_cant": "Exactness over arbitrary networks and lists; the refusal must hold for every non-operator", "anchors": ["src/ngircd/irc-info.c:IRC_LINKS", "src/ngircd/irc-info.c:IRC_SERVLIST", "src/ngircd/irc-info.c:IRC_STATS", "src/ngircd/irc-info.c:IRC_MOTD", "src/ngircd/irc.c:IRC_TRACE"]}
{"id": "C77", "title": "METADATA sets one property, and is passed on", "statement": "When a linked server sends METADATA about a user or service, exactly the named property of that client (cloaked host, host, real name, user name or account) is set, cut to its maximum length, and the client is marked as known to METADATA; nothing else changes. Every other linked server that understands METADATA gets the same METADATA line once, coming from the same source; the client, if it is connected here, is told its new host name exactly if that is what others now see; nobody else gets a line. METADATA without a prefix or about an unknown client is only answered.", "quantifier": "every reachable state with polite peers, every METADATA line of a server link, every key and value", "why_tests_cant": "ranges over all states, keys, values and sets of links with their flags; a test sees a few of them", "anchors": ["src/ngircd/irc-metadata.c:IRC_METADATA", "src/ngircd/client.c:Client_UpdateCloakedHostname", "src/ngircd/irc-write.c:IRC_WriteStrServersPrefixFlag"]}
{"id": "C78", "title": "CHANINFO never overwrites what a channel has", "statement": "When a linked server sends CHANINFO for a channel, the channel takes over the modes (with key and user limit only if the line tells them) exactly if it has no modes yet, and the topic exactly if it has none; nothing else changes. Every local member gets a MODE line and a TOPIC line for exactly what has changed, every other linked server that understands CHANINFO gets the line as it was, and nobody else gets anything. If the channel is unknown, it is created without members and with these modes and topic. With a wrong number of arguments or an unknown source CHANINFO is only answered.", "quantifier": "every reachable state with polite peers, every CHANINFO line of a server link, every channel, mode string, key, limit and topic", "why_tests_cant": "ranges over all states, mode strings and sets of members and links", "anchors": ["src/ngircd/irc-channel.c:IRC_CHANINFO", "src/ngircd/channel.c:Channel_SetModes", "src/ngircd/irc-write.c:IRC_WriteStrChannelPrefix"]}
{"id": "C79", "title": "NJOIN from a linked server: exactly the named clients join, with exactly the told ranks, and everybody who must know is told", "statement": "When a linked server sends NJOIN with a channel and a list of clients with rank signs, then every listed client known here (a user of another server, not yet on the channel) is a member of the channel afterwards with exactly the ranks of its signs; a channel not known yet is made, and nothing else of the server's state changes. Each local member of the channel is told one JOIN per client (and a MODE line when it has ranks), in the order of the list; every other linked server gets one NJOIN with the same clients and signs; nobody else gets a line. A list naming nobody known here changes nothing and sends nothing.", "quantifier": "all reachable states of a server whose peers keep to the protocol, all links, channel names, lists (any number of names and signs, also unknown names) shorter than the line limit", "why_tests_cant": "The announcements and the resulting memberships depend on the whole membership relation, the links and any list length.", "anchors": ["src/ngircd/irc-server.c:IRC_NJOIN", "src/ngircd/channel.c:Channel_Join", "src/ngircd/irc-write.c:IRC_WriteStrServersPrefix"]}
{"id": "C80", "title": "No request, line or event makes the server access invalid memory or fail an assertion", "statement": "Whatever line a client that is not a server sends (registered or not, well formed or not, any command with any arguments), and whatever happens on the network (new connections, lookups, lost connections, data, passing time), the server does not read or write outside an object, use a freed client, channel or connection, follow a null pointer or fail an assertion. Proved for all requests that avoid the defects listed in the specification (empty MODE arguments, percent signs in names with ISON/USERHOST, LINKS after a split, PONG of a refused client, a new GLINE/KLINE, SERVER after PASS); for MODE, PONG and KLINE it is proved that the server indeed goes wrong.", "quantifier": "all reachable states of a server whose peers keep to the protocol, all connections of clients that are not servers, all lines, all random numbers; all events other than lines, for the second part", "why_tests_cant": "Memory safety must hold for every request in every state of the registry; a use after free needs particular histories that no finite set of tests covers.", "anchors": ["src/ngircd/parse.c:Parse_Request", "src/ngircd/parse.c:Handle_Request", "src/ngircd/irc-mode.c:Client_Mode", "src/ngircd/irc-login.c:IRC_PONG", "src/ngircd/irc-oper.c:IRC_xLINE", "src/ngircd/conn.c:Conn_Close"]}
{"id": "C81", "title": "GLINE and KLINE: the line is on the list, exactly the users it covers are removed, and servers are told", "statement": "When an IRC operator (or a linked server, if remote operators are allowed) sets a G-line or K-line, then the mask is on the list with its reason and expiry time and no other entry changes; every user, service or half-registered client covered by the list (for K-lines: connected to this server) is removed with its memberships and connection and nobody else is; every server link is told to KILL each of them, in order, and nobody else is; users sharing a channel with a removed user see it quit with the reason; and a G-line is relayed once to every other server link. Deleting a line removes exactly the entries for that mask, relays the deletion of a G-line, and changes nothing else.", "quantifier": "all reachable states of a server whose peers keep to the protocol, all senders that may do it and are not covered by their own line, all masks below the buffer size, all reasons and times", "why_tests_cant": "Which clients go, who is told and in which order depends on the whole registry, the lists and the memberships; each removal changes the state for the next.", "anchors": ["src/ngircd/irc-oper.c:IRC_xLINE", "src/ngircd/class.c:Class_AddMask", "src/ngircd/class.c:Class_DeleteMask", "src/ngircd/irc.c:IRC_KillClient"]}
{"id": "C82", "title": "The server connects by itself to exactly the servers that are due, one per group, and not more often than ConnectRetry", "statement": "Each check of the table of configured servers tries to connect to exactly those entries that are enabled, complete, not connected or being connected, whose waiting time is over, and in whose group no other entry has a link or is on the way to one; each is tried once and nothing else changes. Two attempts for the same entry are at least ConnectRetry seconds apart whatever happens in between; after the loss of a long link the entry is due three seconds later, after a short one the whole time is waited. Violated when the peer links in while its name is looked up and the lookup fails: the link is forgotten and the server is dialled again.", "quantifier": "all tables, all times, all sequences of checks, lookup results, failing, established and closed connections, links, CONNECT and DISCONNECT commands", "why_tests_cant": "The spacing and the group rule are statements about all histories of the table.", "anchors": ["src/ngircd/conn.c:Check_Servers", "src/ngircd/conn.c:New_Server", "src/ngircd/conn.c:cb_Connect_to_Server", "src/ngircd/conf.c:Conf_UnsetServer", "src/ngircd/conf.c:Conf_SetServer"]}
{"id": "C83", "title": "DISCONNECT: the link is closed and no connection to that server is tried until CONNECT", "statement": "After an operator disables a configured server by name, the entry has no link any more, and in all further histories without CONNECT no attempt to connect to it is made. Unless the lookup of its address is going on at that moment, no connection is opened either; with a running lookup, it is (proved).", "quantifier": "all tables reachable from a freshly started server by any history, all names and times, all further histories without CONNECT", "why_tests_cant": "It quantifies over all histories before and after the command, including lookups and failing connections in any order.", "anchors": ["src/ngircd/conf.c:Conf_DisableServer", "src/ngircd/conf.c:Conf_EnableServer", "src/ngircd/conf.c:Conf_EnablePassiveServer", "src/ngircd/conf.c:Conf_AddServer", "src/ngircd/conn.c:cb_Connect_to_Server"]}
{"id": "C84", "title": "The configuration file means what it says, line by line", "statement": "After the configuration files have been read (at start or at REHASH) every setting of the sections Global, Limits, Options and SSL has the value of its last assignment in a section of that name, converted and limited as documented, or its default; every Operator, Channel and named Server section gives one operator, predefined channel and server (at most 64 servers, at REHASH besides the entries still connected) with the values assigned in that section; empty lines, comments, white space around lines, names and values, the case of names, unknown sections and variables outside sections have no effect.", "quantifier": "all sequences of configuration files whose lines have less than 1023 characters and no NUL bytes, and all previous configurations", "why_tests_cant": "The meaning of a line depends on all lines before it; files are unbounded and settings interact through shared state of the reader (current section, pending server, free places).", "anchors": ["src/ngircd/conf.c:Read_Config", "src/ngircd/conf.c:Read_Config_File", "src/ngircd/conf.c:Handle_GLOBAL", "src/ngircd/conf.c:Handle_LIMITS", "src/ngircd/conf.c:Handle_OPTIONS", "src/ngircd/conf.c:Handle_SERVER", "src/ngircd/conf.c:Handle_OPERATOR", "src/ngircd/conf.c:Handle_CHANNEL"]}
{"id": "C85", "title": "Every accepted configuration is a proper one", "statement": "After reading any configuration files, whatever they contain, every setting is inside its documented bounds: nick names of at most 31 characters, timeouts of at least five seconds, port numbers between 1 and 65534, texts no longer than the variables holding them, channel types and default user modes without repeated or unknown letters, predefined channels with a channel prefix and at most 50 characters. The server runs only under a name which is a host name (letters, digits, dots and dashes, beginning with a letter or digit, with a dot, shorter than 64 characters). A server started with an accepted configuration without exclamation marks in the names of its peers is in one of the initial states all other properties start from.", "quantifier": "all contents of all configuration files, at start and when they are read again, all previous tables of servers and channels", "why_tests_cant": "A test reads a few files; the bounds must hold for every sequence of bytes in the files, including duplicates, overlong lines and numbers out of range.", "anchors": ["src/ngircd/conf.c:Read_Config", "src/ngircd/conf.c:Handle_MaxNickLength", "src/ngircd/conf.c:ports_parse", "src/ngircd/conf.c:Handle_Channelname", "src/ngircd/conf.c:Validate_Config"]}
{"id": "C86", "title": "Reading the configuration is memory safe", "statement": "Whatever the configuration files say, reading them fails no assertion and writes behind no array in the options and in the table of servers. The SSL settings and the predefined channels are safe provided that no text setting of SSL is given twice and no channel has more than 512 lines with modes. Both restrictions are necessary: setting CertFile twice fails an assertion, and the 513th Modes line of a channel is written behind the array of modes.", "quantifier": "all contents of all configuration files, at start and when they are read again", "why_tests_cant": "A crash needs one particular file; the property is about all of them.", "anchors": ["src/ngircd/conf.c:Read_Config_File", "src/ngircd/conf.c:Handle_OPTIONS", "src/ngircd/conf.c:Handle_SSL", "src/ngircd/conf.c:Handle_CHANNEL"]}
{"id": "C87", "title": "Commands nobody may use are refused without effect", "statement": "A line whose command does not exist is answered to a user with ERR_UNKNOWNCOMMAND and ignored when it comes from a server or before registration. A known command with too few or too many arguments is answered with ERR_NEEDMOREPARAMS, one the client may not use (before registration, or reserved for servers) with ERR_NOTREGISTERED or its server variant; in all these cases exactly this one line goes to the client and nothing else changes. A status code from a linked server is passed on unchanged towards its addressee and to nobody else, and dropped when the addressee is unknown.", "quantifier": "all reachable states, connections, lines, and every command of the server", "why_tests_cant": "A test tries some commands with some argument counts; the absence of effects must hold for every command, client type and state.", "anchors": ["src/ngircd/parse.c:Handle_Request", "src/ngircd/parse.c:Validate_Args", "src/ngircd/parse.c:Handle_Numeric"]}
{"id": "C88", "title": "PING is answered, or passed on to exactly the server meant", "statement": "PING for this server is answered to the user with exactly one PONG of this server carrying the same text, to a linked server with the name of the originator. PING naming another server is passed on towards that server only, unchanged and in the name of its originator; PING without text gets ERR_NOORIGIN, PING for an unknown server ERR_NOSUCHSERVER. PONG from a linked server for somebody else is passed on to exactly that client. Nothing else changes.", "quantifier": "all reachable states, connections, PING and PONG lines and servers", "why_tests_cant": "A test sends a few PINGs; that keep-alive traffic has no other effect and reaches only the server meant must hold in every network.", "anchors": ["src/ngircd/irc-login.c:IRC_PING", "src/ngircd/irc-login.c:IRC_PONG"]}
{"id": "C89", "title": "Operator commands do exactly what they announce", "statement": "OPER with the name, the password and (if one is configured) a matching host mask of an operator block makes the user an IRC operator: mode 'o' and the operator's record change, RPL_YOUREOPER is the answer and the mode change goes to every linked server; doing it again only repeats the answer; wrong credentials change nothing but are answered and noted. DIE, REHASH and RESTART from an operator set exactly the matching request flag, and DIE with a text tells every local user that text; from anybody else they are answered with ERR_NOPRIVILEGES and change nothing.", "quantifier": "all reachable states, users, operator configurations and lines", "why_tests_cant": "A test tries some credentials and one operator; that no other combination of name, password and mask yields operator rights, and that nobody else can stop the server, must hold for every state and line.", "anchors": ["src/ngircd/irc-oper.c:IRC_OPER", "src/ngircd/irc-oper.c:IRC_DIE", "src/ngircd/irc-oper.c:IRC_REHASH", "src/ngircd/irc-oper.c:IRC_RESTART"]}
{"id": "C90", "title": "A MODE command about a channel touches that channel only", "statement": "Whoever sends it and whatever its parameters are, a MODE command whose first parameter names an existing channel changes at most the modes, key, limit and lists of that channel and the ranks of its members: its name, topic and creation time, all other channels and memberships, all clients, connections and server data stay as they are. A MODE command naming neither a client nor a channel changes nothing, and one of a user adds at most five entries to the channel's lists, however long it is.", "quantifier": "all reachable states, senders and MODE lines", "why_tests_cant": "A test inspects a few channels after a few MODE lines; that no combination of letters and arguments leaks into another channel or client must hold for all.", "anchors": ["src/ngircd/irc-mode.c:IRC_MODE", "src/ngircd/irc-mode.c:Channel_Mode", "src/ngircd/irc-mode.c:Mode_Limit_Reached"]}
{"id": "C91", "title": "Pre-defined channels are created and nothing else changes when the configuration is read", "statement": "At its start the server has exactly one channel for every configured channel name that is a valid channel name, and &SERVER, and no others; each has the configured name and topic and, for a block with plain mode letters, exactly the configured modes and P. When the configuration is read again while the server runs, it creates the configured channels that do not exist yet (and &SERVER) in the same way, never a second channel of an existing name, and leaves every channel, topic, mode, member, client and connection there was as it is; the server keeps its name. Violated: a mode string with a bad argument or on a channel '+name' makes the server answer itself on a connection it does not have, and stops it.", "quantifier": "every configuration, every state any history of inputs can lead to", "why_tests_cant": "it ranges over all configurations and all histories before a rehash", "anchors": ["src/ngircd/channel.c:Channel_InitPredefined", "src/ngircd/sighandlers.c:Rehash"]}
{"id": "C92", "title": "Host names are confirmed, user names come from IDENT, and servers are looked for at their own addresses", "statement": "With lookups switched on, the resolver gives a client the name of its address only if that name has the client's address among its own addresses; in all other cases (no name, an overlong name, no address for the name, other addresses only) the client's host name is the text of its address; with lookups switched off none is set. A user name is only taken from an IDENT reply, and only if it consists of letters and digits. To reach a configured server, exactly the addresses of its host name are tried, in the order returned, each once and after the one before failed, at most three. The resolver and its parent never fail on the way. Relied upon: the C library's names contain no newline (violated otherwise: the part before the newline becomes an unconfirmed host name).", "quantifier": "every address, every answer of the C library, every IDENT reply, every number of failed connection attempts", "why_tests_cant": "the answers come from name servers under the control of others and cannot be enumerated", "anchors": ["src/ngircd/resolve.c:Do_ResolveAddr_Ident", "src/ngircd/resolve.c:ReverseLookup", "src/ngircd/resolve.c:Addr_in_list", "src/ngircd/resolve.c:Do_ResolveName", "src/ngircd/conn.c:cb_Read_Resolver_Result", "src/ngircd/conn.c:cb_Connect_to_Server"]}
{"id": "C93", "title": "Every event on a socket reaches the callback in charge of it, and nobody waits in vain", "statement": "After any history of registrations, changes, closes and rounds of events, the kernel is asked for exactly the events wanted on the descriptors registered and not closed, and with select() all of them are within the range looked at. In a round of events every event reported goes in turn to the callback in charge of the descriptor at that moment, with the events reported (after an error: those wanted); it is dropped only if the descriptor has been closed by an earlier callback. Calls that respect the rules (register new descriptors, change registered ones) never fail an assertion, and a registration only fails for lack of memory, at the limit of select(), or if the kernel refuses. Violated: events are known by the descriptor's number only, so one reopened within a round gets the event of its predecessor.", "quantifier": "every history of calls, every set of events reported, every behaviour of the callbacks", "why_tests_cant": "it depends on the order of events and on what callbacks do to other descriptors during a round", "anchors": ["src/ngircd/io.c:io_event_create", "src/ngircd/io.c:io_event_add", "src/ngircd/io.c:io_event_del", "src/ngircd/io.c:io_close", "src/ngircd/io.c:io_close_select", "src/ngircd/io.c:io_dispatch_epoll", "src/ngircd/io.c:io_dispatch_select", "src/ngircd/io.c:io_docallback"]}
{"id": "C94", "title": "A connection's character encoding is its own, and lines are converted to it", "statement": "CHARCONV switches exactly the asking connection to the encoding named (UTF-8: no conversion; an unknown encoding: an error reply and no conversion) and leaves every other connection alone. From then on the message part of every line sent to it is converted to that encoding, the rest of the line is not, messages it sends are converted in the opposite direction, connections without conversion get their lines byte for byte, no handle of the conversion library is used after it was closed, none is lost, and no conversion writes outside its buffer.", "quantifier": "every history of CHARCONV commands, lines, messages and closed connections, every behaviour of the conversion library, every line", "why_tests_cant": "the handle bookkeeping depends on the whole history, and overflow depends on how much each text grows in each encoding", "anchors": ["src/ngircd/conn-encoding.c:Conn_SetEncoding", "src/ngircd/conn-encoding.c:Convert_Message", "src/ngircd/irc-encoding.c:IRC_CHARCONV", "src/ngircd/conn.c:Conn_WriteStr"]}
{"id": "C95", "title": "Every receiver gets a message in its own encoding", "statement": "A PRIVMSG or NOTICE is taken from the encoding of its sender, and each receiver of each target gets that text converted to the receiver's own encoding (or unconverted if it has none).", "quantifier": "every reachable state, sender, text, list of targets and receivers, and behaviour of the conversion library", "why_tests_cant": "the text is kept in one buffer shared by all conversions; whether it survives depends on the order of targets and on the encodings of all receivers", "anchors": ["src/ngircd/irc.c:Send_Message", "src/ngircd/conn-encoding.c:Conn_EncodingFrom", "src/ngircd/conn-encoding.c:Conn_EncodingTo"]}
{"id": "C96", "title": "The server gives up root, and stays inside its root directory", "statement": "Started by root, and with a valid ServerUID (or, when none is set, a valid user nobody), the server comes up only as this user, with real, effective and saved ID, and never as root; with a valid ServerGID different from its group it is in this group only and has no supplementary groups; started by another user it never gets an ID it did not have. With ChrootDir the server comes up only with this directory as its root directory and its working directory inside it.", "quantifier": "every configuration, every process the server is started as, every system (valid IDs, user database, directories, failing system calls), in the foreground and as a daemon", "why_tests_cant": "tests do not run as root, and which of the system calls fail and how depends on the system", "anchors": ["src/ngircd/ngircd.c:NGIRCd_Init", "src/ngircd/ngircd.c:NGIRCd_getNobodyID"]}
{"id": "C97", "title": "No signal is lost, blocked for ever or invented", "statement": "However signals, interrupted handlers and the main program interleave: a signal is blocked only while its own handler runs, after the last signal everything settles in a bounded number of steps, SIGTERM, SIGINT and SIGQUIT tell the server to quit and nothing else does, one SIGUSR1 changes the debug mode, after a SIGHUP the configuration is read again (from the main program, not from the handler) and in debug mode the state is dumped after a SIGUSR2, as long as the queue of signals has room; and neither happens more often than it was asked for.", "quantifier": "every sequence of sent and delivered signals, every interleaving of (nested) handlers with the main program, every size of the pipe", "why_tests_cant": "the races between a handler, another handler that interrupts it and the main program cannot be provoked by a test", "anchors": ["src/ngircd/sighandlers.c:Signal_Handler", "src/ngircd/sighandlers.c:Signal_Handler_BH", "src/ngircd/sighandlers.c:Signal_Callback", "src/ngircd/sighandlers.c:Signals_Init"]}
{"id": "C98", "title": "Compressed links carry every line, in order", "statement": "On a server link with compression (zlib): the bytes sent are the lines from before the compression as they are followed by the compressed rest, all in order, and whatever is not yet sent is in the buffers of the connection as long as it is open; the receiving server executes exactly the lines the sender wrote, each once and in order, however the stream is cut into packets and however many commands are handled at a time, and once everything was flushed, read and handled all of them were executed; the link is not closed meanwhile.", "quantifier": "every lawful compressor, every sequence of lines, every way the stream is cut by write() and read(), every limit of commands", "why_tests_cant": "the cut of the stream at the switch from text to compressed data depends on the network; tests see a few cuts", "anchors": ["src/ngircd/conn-zip.c:Zip_Buffer", "src/ngircd/conn-zip.c:Zip_Flush", "src/ngircd/conn-zip.c:Unzip_Buffer", "src/ngircd/conn.c:Handle_Buffer", "src/ngircd/conn.c:Conn_Handler", "src/ngircd/conn.c:Conn_Write"]}
{"id": "C99", "title": "TLS connections lose, repeat and delay nothing", "statement": "On an established TLS connection the text handled is a beginning of the text that arrived, and the text sent is a beginning of the text written, in order and each byte once; while the connection is open all the rest is in its buffers. A write that has to be repeated is repeated with the data it had. An open connection with something to write is watched for output, one with room for input is watched for input; text that arrived is read and text that was written is sent when the socket permits it, and nothing of this closes the connection.", "quantifier": "every interleaving of arriving records of any size, writes, socket readiness, results of SSL_write, penalties and addresses given by realloc()", "why_tests_cant": "what SSL_read and SSL_write ask for depends on the cut of records in the network; tests see a few schedules", "anchors": ["src/ngircd/conn-ssl.c:ConnSSL_Read", "src/ngircd/conn-ssl.c:ConnSSL_Write", "src/ngircd/conn-ssl.c:ConnSSL_HandleError", "src/ngircd/conn.c:cb_clientserver", "src/ngircd/conn.c:Conn_Handler", "src/ngircd/conn.c:SSL_WantRead", "src/ngircd/conn.c:SSL_WantWrite", "src/ngircd/conn.c:Read_Request", "src/ngircd/conn.c:Handle_Write"]}
{"id": "C100", "title": "snprintf() of the portability library formats as the C standard says, within the buffer", "statement": "The replacement of snprintf() stores nothing outside the buffer it was given; the buffer then holds, terminated, the beginning of the output that has room, and the value returned is the length of the whole output. The output is that of the C standard for literal text, %%, %c, %s, %d, %u, %o, %x and %X with flags, width, precision and the length modifier l.", "quantifier": "every format, every list of arguments, every size of the buffer", "why_tests_cant": "the combinations of flags, widths, precisions, values and buffer sizes are unbounded; portabtest tries three", "anchors": ["src/portab/vsnprintf.c:dopr", "src/portab/vsnprintf.c:fmtstr", "src/portab/vsnprintf.c:fmtint", "src/portab/vsnprintf.c:dopr_outch", "src/portab/vsnprintf.c:vsnprintf", "src/portab/vsnprintf.c:snprintf"]}
{"id": "C101", "title": "HELP gives the article asked for", "statement": "HELP with a topic sends exactly the text of the first article of the help file with that topic (without regard to case), all lines in order, and nothing else; if there is no such article, or if it is empty, it says that there is no help. HELP without a topic sends the article Intro, HELP Commands the names of all commands, as does HELP without a help text. A text file is taken over line by line.", "quantifier": "every help file with lines of up to 511 bytes, every topic", "why_tests_cant": "help files are written by administrators; their length and order are unbounded", "anchors": ["src/ngircd/conf.c:Read_TextFile", "src/ngircd/irc.c:Help", "src/ngircd/irc.c:IRC_HELP"]}
