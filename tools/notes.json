{
 "C02": {
  "status": "partial",
  "note": "complete for masks not ending in ** and without a backslash right behind a wildcard; both exclusions are real violations, proved"
 },
 "C03": {
  "status": "partial",
  "note": "case irrelevance, soundness and list semantics are full; completeness inherits the exclusions of C02"
 },
 "C04": {
  "status": "partial",
  "note": "prefix (nothing spurious/duplicated) is proved for all streams, schedules and handlers; 'nothing lost' is proved for handlers that never report failure while leaving the connection open - for those that do, C04_violation_wedged proves the connection is dead forever; 511-byte lines depend on the packet split (C04_violation_511)"
 },
 "C43": {
  "status": "partial",
  "note": "dropped iff the first colon is followed by a non-ACTION CTCP (exact characterisation); a CTCP without colon, or after an earlier colon, passes: two violation theorems"
 },
 "C28": {
  "status": "proved",
  "note": "for masks below the 128 byte buffer (guaranteed by Lists_MakeMask); C28_violation_long_mask shows the bound is needed"
 },
 "C80": {
  "status": "partial",
  "note": "all commands of clients that are not servers, and all events; missing: requests of server links, and the requests excluded by Spec.Harmless, which are real defects (empty MODE argument, PONG after a refused login, GLINE/KLINE of an operator matching itself: each proved as a violation here; '%' in names and LINKS after a split are C72_violated_by_percent and C76_links_violated_by_split)"
 },
 "C83": {
  "status": "partial",
  "note": "no further attempt is made: full; 'no connection is opened' excludes a lookup that is running at that moment, where it is false (C83_violated_by_lookup)"
 },
 "C82": {
  "status": "proved",
  "note": "'connected' is what the table of configured servers says; C82_violated_by_lookup proves that the table can forget a link that is up"
 },
 "C86": {
  "status": "partial",
  "note": "options and server table: for all files (C86_reader); SSL and channels under the restrictions shown necessary by the two witnesses (C86_violated_by_ssl, C86_violated_by_modes)"
 },
 "C94": {
  "status": "partial",
  "note": "the encoding of each connection and the conversion of lines that fit: full; 'no handle is lost' excludes closing a converting connection (C94_violated_by_close); 'no conversion writes outside its buffer' is false: C94_violated_by_growth, C94_violated_by_long_line"
 },
 "C95": {
  "status": "partial",
  "note": "excludes messages of a converting sender to several targets of which an earlier one has a converting receiver, where it is false (C95_violated_by_two_targets), and texts that do not fit after conversion"
 },
 "C96": {
  "status": "partial",
  "note": "excludes a ServerGID that is unset or equal to the present group (C96_violated_by_group), IDs that are not valid (C96_violated_by_namespace), set-user-ID files (C96_violated_by_setuid_file), a relative ChrootDir in the foreground (C96_violated_by_relative_chroot)"
 },
 "C97": {
  "status": "partial",
  "note": "excludes more SIGHUP and SIGUSR2 between two settled states than the pipe has room for, where a signal is lost (C97_violated_by_full_pipe); the comment of Signal_Handler that signals are blocked until they are handled is false (C97_violated_by_block)"
 },
 "C98": {
  "status": "partial",
  "note": "excludes: a read that ends between the CR and the LF of the line that enables the compression (C98_violated_by_split_crlf: the link is closed), and the command limit reached at that line (C98_violated_by_stall: what was read behind it is not handled until the peer sends more; when it fills the compressed buffer the next read closes the link). Reads come when Conn_Handler asks for input (fewer than COMMAND_LEN bytes buffered), at least two commands are allowed at a time (the code allows servers ten). The write buffer of a compressed link has no limit (C98_violated_by_write_buffer)."
 },
 "C99": {
  "status": "partial",
  "note": "order, completeness and watching: full. Progress is proved under conditions, because the claim fails otherwise: C99_violated_by_long_record (the rest of a record of more than READBUFFER_LEN bytes is not read until the peer sends more, SSL_pending is not used), C99_violated_by_want_read (after a read without text nothing is written until the peer sends more), C99_violated_by_full_buffer (a blocked write with a full read buffer closes the connection), C99_violated_by_moved_buffer (realloc() moves the buffer of a blocked write, SSL_MODE_ACCEPT_MOVING_WRITE_BUFFER is not set: closed). The TLS library is modelled by its documented interface; handshake and renegotiation are not modelled."
 },
 "C100": {
  "status": "partial",
  "note": "the bounds of the buffer: for every format and all arguments (C100_bound). The output: for all formats of literal characters and conversions, except (Spec.Piece.Plain) a string cut by a precision smaller than the width (C100_violated_by_precision), numbers of 20 and more digits (C100_violated_by_digits: the first digit is lost), the flag 0 together with the flag - or a precision (C100_violated_by_zeros, C100_violated_by_zero_flag), and the number 0 with precision 0 (C100_violated_by_zero): every exclusion is a real deviation. Not modelled: floating point, %p, %n, *, overflow of int."
 },
 "C101": {
  "status": "partial",
  "note": "full, except that lines have to follow the text of the last article: otherwise its text is followed by the message that there is no help for it (C101_violated_by_last; doc/Commands.txt of the distribution ends that way). Lines longer than 511 bytes are cut by fgets. Model/Help is separate from the server model, which has no help text."
 }
}