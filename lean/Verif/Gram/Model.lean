/-!
# What decoders print over both phases of a call, as tokens

Text is reduced to brackets, separators, names of fields and "some value"; comments are part of the value before them. Each decoder is a
function of what it finds in the memory of the process on entering and on exiting: `none` where a structure cannot be read, and of whether
the call failed. `umove_or_printaddr` on exiting cannot read anything if the call failed.
-/
namespace Strace.Gram

/-- `tprint_struct_begin` and `_end`, `tprint_array_begin` and `_end` (also `tprint_indirect_begin` and `_end`), `tprint_struct_next`,
`tprint_array_next` and `tprint_arg_next`, `tprints_field_name`, a value (also "..." and "???"), `tprint_value_changed`:
src/print_fields.h:31-265 -/
inductive Tok where
  | so | sc | ao | ac | next | name (s : String) | val | changed
  deriving DecidableEq
open Tok

/-- `PRINT_FIELD_U` and the like, src/print_fields.h:268-1050 -/
def f (n : String) : List Tok := [name n, val]

/-- a further field -/
def nf (n : String) : List Tok := next :: f n

/-- fields separated by commas -/
def fs : List String → List Tok
  | [] => []
  | [n] => f n
  | n :: r => f n ++ next :: fs r

/-- a structure with fields of plain values -/
def st (l : List String) : List Tok := so :: fs l ++ [sc]

/-- what is printed if a condition holds -/
def opt (b : Bool) (t : List Tok) : List Tok := if b then t else []

/-- the ways `print_array_ex` goes, src/util.c:1881-1991: a single value (NULL, or the address if the first member cannot be read or there
is no such range), or `k` members and perhaps "..." -/
inductive Arr where
  | value
  | members (k : Nat) (more : Bool)
  deriving DecidableEq

/-- `k + 1` members, separated -/
def members (e : Nat → List Tok) : Nat → List Tok
  | 0 => e 0
  | k + 1 => members e k ++ next :: e (k + 1)

/-- `print_array_ex`, src/util.c:1881-1991, and `print_local_array_ex` -/
def arr (e : Nat → List Tok) : Arr → List Tok
  | .value => [val]
  | .members 0 more => ao :: opt more [val] ++ [ac]
  | .members (k + 1) more => ao :: members e k ++ opt more [next, val] ++ [ac]

/-- members that are plain values -/
def plain (_ : Nat) : List Tok := [val]

/-! ## src/tee.c -/

/-- the ways `tee_fetch_buf_data` goes, src/tee.c:53-95: the address was printed, `{buf_len=, buf_ptr=}` was printed, or all was fetched
and the parameters go as told -/
inductive Buf where
  | addr | buf
  | ok (params : Arr)

/-- what `tee_fetch_buf_data` prints, src/tee.c:62-86 -/
def fetchText : Buf → List Tok
  | .addr => [val]
  | .buf => st ["buf_len", "buf_ptr"]
  | .ok _ => []

/-- `tee_print_param_fn`, src/tee.c:97-146; 0 stands for the type NONE, 1 for the memory references -/
def teeParam (kind : Nat → Nat) (i : Nat) : List Tok :=
  if kind i = 0 then st ["attr"]
  else if kind i = 1 then st ["attr", "shm_offs", "size", "shm_id"]
  else st ["attr", "a", "b", "c"]

/-- `tee_print_params`, src/tee.c:148-157 -/
def teeParams (kind : Nat → Nat) (a : Arr) : List Tok := next :: name "params" :: arr (teeParam kind) a

/-- `tee_open_session`, src/tee.c:191-276, `tee_invoke`, src/tee.c:278-328, `tee_suppl_recv`, src/tee.c:364-408, `tee_suppl_send`,
src/tee.c:410-451: the same but for the members shown; `pre` on entering, `post` on exiting -/
def teeCall (pre post : List Tok) (kind kind' : Nat → Nat) (e : Buf) (failed : Bool) (x : Buf) : List Tok :=
  match e with
  | .ok a =>
    [so] ++ f "buf_len" ++ [next, name "buf_ptr", so] ++ pre ++ teeParams kind a ++ [sc] ++
      if failed then [sc]
      else changed ::
        match x with
        | .ok b => [so] ++ post ++ teeParams kind' b ++ [sc, sc]
        | _ => fetchText x
  | _ => fetchText e

/-- the members of `tee_open_session` on entering, src/tee.c:208-245: `login` 0 for those without clnt_uuid, 1 for the groups -/
def openPre (login : Nat) (uuid : Arr) : List Tok :=
  fs ["uuid", "clnt_login"] ++
    (if login = 0 then [] else if login = 1 then nf "clnt_uuid" else next :: name "clnt_uuid" :: arr plain uuid) ++
    nf "cancel_id" ++ nf "num_params"

def teeOpen (login : Nat) (uuid : Arr) := teeCall (openPre login uuid) (fs ["session", "ret", "ret_origin"])
def teeInvoke := teeCall (fs ["func", "session", "cancel_id", "num_params"]) (fs ["ret", "ret_origin"])
def teeRecv := teeCall (fs ["func", "num_params"]) (fs ["num_params"])
def teeSend := teeCall (fs ["num_params"]) (fs ["ret"])

/-- `tee_shm_alloc`, src/tee.c:453-490, `tee_shm_register_fd`, src/tee.c:492-526, `tee_shm_register`, src/tee.c:528-567: a structure on
entering, if the call succeeded another one after "=>"; the second reading prints the address if it fails -/
def teeShm (pre post : List String) (readable failed readable' : Bool) : List Tok :=
  if readable then st pre ++ if failed then [] else changed :: if readable' then st post else [val]
  else [val]

/-! ## src/file_handle.c -/

/-- `name_to_handle_at`, src/file_handle.c:38-98: `e` is handle_bytes on entering, `x` on exiting, if it can be read; `overflow`: the call
failed with EOVERFLOW -/
def nameToHandleAt (e : Option Nat) (failed overflow : Bool) (x : Option Nat) : List Tok :=
  [val, next, val, next] ++
    match e with
    | none => [val, next, val, next, val]
    | some n =>
      [so] ++ f "handle_bytes" ++
        (match x with
         | none => []
         | some m =>
           if !failed || overflow then opt (m != n) [changed, val] ++ opt (!failed) (nf "handle_type" ++ nf "f_handle") else []) ++
        [sc, next, val, next, val]

/-! ## consoles -/

/-- `kd_keycode`, src/kd_ioctl.c:555-592 -/
def kdKeycode (get readable failed readable' : Bool) : List Tok :=
  if readable then
    [so] ++ fs ["scancode", "keycode"] ++
      (if get then (if failed || !readable' then [sc] else [changed, val, sc]) else [sc])
  else [val]

/-- `kd_kbdrep`, src/kd_ioctl.c:617-642 -/
def kdKbdrep (readable failed readable' : Bool) : List Tok :=
  if readable then st ["delay", "period"] ++ if failed || !readable' then [] else changed :: st ["delay", "period"] else [val]

/-- `print_unipair_array_member`, src/kd_mpers_ioctl.c:38-51 -/
def unipair (_ : Nat) : List Tok := st ["unicode", "fontpos"]

/-- `kd_unimap`, src/kd_mpers_ioctl.c:53-99; `enomem`: the call failed with ENOMEM -/
def kdUnimap (get readable failed enomem readable' : Bool) (entries : Arr) : List Tok :=
  let pairs := next :: name "entries" :: arr unipair entries ++ [sc]
  if readable then
    [so] ++ f "entry_ct" ++
      if !get then pairs
      else if !readable' then [val, sc]
      else [changed, val] ++ if failed && !enomem then nf "entries" ++ [sc] else pairs
  else [val]

/-- `kd_fontx`, src/kd_mpers_ioctl.c:121-141 -/
def kdFontx (get readable failed readable' : Bool) : List Tok :=
  let s := st ["charcount", "charheight", "chardata"]
  if readable then s ++ if get then (if failed || !readable' then [] else changed :: s) else []
  else [val]

/-- `print_console_font_op`, src/kd_mpers_ioctl.c:143-223; `op` 0 SET, 1 GET, 2 SET_DEFAULT, 3 COPY, else unknown -/
def fontOp (entering : Bool) (op : Nat) : List Tok :=
  [so] ++ opt entering (f "op" ++ opt (op != 2 && op != 3) (nf "flags") ++ [next]) ++
    (if op = 3 then f "height" else fs ["width", "height"]) ++
    opt (op != 2 && op != 3) (nf "charcount") ++
    (if op = 2 then opt entering (nf "data") else if op = 3 then [] else nf "data") ++ [sc]

/-- `kd_font_op`, src/kd_mpers_ioctl.c:225-251; `e` and `x` are the operation read on entering and on exiting -/
def kdFontOp (e : Option Nat) (failed : Bool) (x : Option Nat) : List Tok :=
  match e with
  | none => [val]
  | some op =>
    fontOp true op ++
      if op = 0 ∨ op = 3 then []
      else if failed then []
      else match x with
        | none => []
        | some op' => changed :: fontOp false op'

/-! ## src/perf_ioctl.c, src/sock.c -/

/-- `perf_ioctl_query_bpf`, src/perf_ioctl.c:22-62 -/
def queryBpf (readable failed readable' : Bool) (ids : Arr) : List Tok :=
  if readable then
    [so] ++ f "ids_len" ++ [next] ++
      if failed || !readable' then [val, sc] else f "prog_cnt" ++ next :: name "ids" :: arr plain ids ++ [sc]
  else [val]

/-- `struct ifconf` -/
structure Ifconf where
  len : Int
  buf : Nat

/-- `print_ifconf_ifreq`, src/sock.c:140-153 -/
def ifreq (_ : Nat) : List Tok := [so] ++ f "ifr_name" ++ [next, name "ifr_addr"] ++ [val] ++ [sc]

/-- `decode_ifconf`, src/sock.c:168-247 -/
def ifconf (e : Option Ifconf) (failed : Bool) (x : Option Ifconf) (reqs : Arr) : List Tok :=
  match e with
  | none => [val]
  | some e =>
    [so, name "ifc_len"] ++ opt (e.buf != 0) [val] ++
      match x with
      | none => opt (e.buf == 0) [val] ++ nf "ifc_buf" ++ [sc]
      | some x =>
        opt (e.buf != 0 && e.len != x.len) [changed] ++ opt (e.buf == 0 || e.len != x.len) [val] ++
          (if e.buf == 0 || failed then nf "ifc_buf" ++ opt (e.buf != x.buf) [changed, val]
           else next :: name "ifc_buf" :: arr ifreq reqs) ++ [sc]

/-! ## src/v4l2.c -/

/-- `print_v4l2_format`, src/v4l2.c:421-455, over `print_v4l2_format_fmt`, src/v4l2.c:355-411: `e` and `x` give the name of the
member shown for the type read, if the type is known; `whole`: what hangs on the structure could be read on entering. The member shown is one
value here. -/
def v4l2Format (get : Bool) (e : Option (Option String)) (whole failed : Bool) (x : Option (Option String)) : List Tok :=
  match e with
  | none => [val]
  | some known =>
    [so] ++ f "type" ++
      if get then
        (if failed then [] else match x with
          | some (some n) => nf n
          | _ => []) ++ [sc]
      else
        match known with
        | none => [sc]
        | some n =>
          nf n ++
            if !whole then [sc]
            else (if failed then [] else match x with
              | some (some n') => [sc, changed, so] ++ f n'
              | _ => []) ++ [sc]

/-- `print_v4l2_requestbuffers`, src/v4l2.c:459-489 -/
def v4l2Requestbuffers (readable failed readable' : Bool) : List Tok :=
  if readable then [so] ++ fs ["type", "memory", "count"] ++ opt (!failed && readable') [changed, val] ++ [sc] else [val]

/-- `print_v4l2_streamparm`, src/v4l2.c:761-812: `e` gives the name of the member shown if the type is one of the two that are known, `x` the name
on exiting. The member shown is one value here. -/
def v4l2Streamparm (get : Bool) (e : Option (Option String)) (failed : Bool) (x : Option String) : List Tok :=
  match e with
  | none => [val]
  | some known =>
    [so] ++ f "type" ++
      match known with
      | none => [sc]
      | some n =>
        opt (!get) (nf n) ++
          if failed then [sc]
          else match x with
            | none => [sc]
            | some n' => (if get then [next] else [sc, changed, so]) ++ f n' ++ [sc]

/-- `print_v4l2_tuner`, src/v4l2.c:994-1050 -/
def v4l2Tuner (get readable failed readable' : Bool) : List Tok :=
  let rest := fs ["name", "type", "capability", "rangelow", "rangehigh", "rxsubchans", "audmode", "signal", "afc"]
  if readable then
    [so] ++ f "index" ++ opt (!get) (next :: rest) ++
      if failed || !readable' then [sc] else (if get then [next] else [sc, changed, so]) ++ rest ++ [sc]
  else [val]

/-- `print_v4l2_queryctrl`, src/v4l2.c:1055-1114: `e` and `x` are the id; `brief` is `abbrev(tcp)`; `res`: the reserved words are not zero -/
def v4l2Queryctrl (e : Option Nat) (failed : Bool) (x : Option Nat) (brief : Bool) (res : Option Arr) : List Tok :=
  match e with
  | none => [val]
  | some id =>
    [so] ++ f "id" ++
      (if failed then [] else match x with
        | none => []
        | some id' =>
          opt (id' != id) [changed, val] ++ nf "type" ++ nf "name" ++
            if brief then [next, val]
            else nf "minimum" ++ nf "maximum" ++ nf "step" ++ nf "default_value" ++ nf "flags" ++
              match res with
              | none => []
              | some a => next :: name "reserved" :: arr plain a) ++ [sc]

/-- `print_v4l2_ext_control`, src/v4l2.c:1247-1269; `str i`: the size is not 0 -/
def v4l2ExtControl (str : Nat → Bool) (i : Nat) : List Tok :=
  [so] ++ fs ["id", "size"] ++ (if str i then nf "string" else nf "value" ++ nf "value64") ++ [sc]

/-- `print_v4l2_ext_controls`, src/v4l2.c:1271-1327: `e` and `x` are the array of controls, if the structure can be read; `none` inside: the
count is 0. `fail` as `print_array` tells -/
def v4l2ExtControls (get : Bool) (e : Option (Option (Arr × Bool))) (failed : Bool) (x : Option Arr) (str str' : Nat → Bool) : List Tok :=
  match e with
  | none => [val]
  | some inner =>
    [so] ++ fs ["ctrl_class", "count"] ++
      match inner with
      | none => [sc]
      | some (a, fail) =>
        let exit :=
          match x with
          | none => [sc]
          | some b =>
            (if get then [next] else [sc, changed, so]) ++ name "controls" :: arr (v4l2ExtControl str') b ++ opt failed (nf "error_idx") ++ [sc]
        if get then exit
        else next :: name "controls" :: arr (v4l2ExtControl str) a ++ if fail then [sc] else exit

/-! ## src/sg_io_v3.c, src/sg_io_v4.c -/

/-- `dxfer_direction`, src/sg_io_v3.c -/
inductive Dir where
  | toDev | fromDev | toFromDev | other
  deriving DecidableEq

/-- the members shown of a response, src/sg_io_v3.c:141-160 -/
def sgV3Status : List Tok :=
  nf "status" ++ nf "masked_status" ++ nf "msg_status" ++ nf "sb_len_wr" ++ nf "sbp" ++ nf "host_status" ++ nf "driver_status" ++ nf "resid" ++
    nf "duration" ++ nf "info"

/-- `decode_response`, src/sg_io_v3.c:97-163: `d` is the direction on entering; on exiting, whether the interface_id is unchanged, the
direction and whether there are bytes to show. Buffers are one value here. -/
def sgV3Response (d : Dir) : Option (Bool × Dir × Bool) → List Tok
  | none => opt (d == .fromDev) (nf "dxferp") ++ nf "sbp"
  | some (false, _, _) => changed :: f "interface_id"
  | some (true, d', bytes) =>
    opt (d' == .fromDev) (nf "dxferp") ++ opt (d' == .toFromDev && bytes) (changed :: f "dxferp") ++ sgV3Status

/-- the first members of a request, src/sg_io_v3.c:67-82 -/
def sgV3Request : List Tok := fs ["dxfer_direction", "cmd_len", "cmdp", "mx_sb_len", "iovec_count", "dxfer_len", "timeout", "flags"]

/-- `decode_request`, src/sg_io_v3.c:50-95, and `decode_response`, with `scsi_ioctl`, src/scsi.c:87-93, which closes the structure: `e` is the
direction on entering, if it can be read -/
def sgIoV3 (e : Option Dir) (x : Option (Bool × Dir × Bool)) : List Tok :=
  match e with
  | none => [so] ++ f "interface_id" ++ [next, val, sc]
  | some d =>
    [so] ++ f "interface_id" ++ [next] ++ sgV3Request ++ opt (d == .toDev || d == .toFromDev) (nf "dxferp") ++ sgV3Response d x ++ [sc]

/-- `decode_request` and `decode_response`, src/sg_io_v4.c:34-148, likewise; `x`: whether the guard is unchanged -/
def sgIoV4 (readable : Bool) (x : Option Bool) : List Tok :=
  [so] ++ f "guard" ++ [next] ++
    if readable then
      fs ["protocol", "subprotocol", "request_len", "request", "request_tag", "request_attr", "request_priority", "request_extra",
          "max_response_len", "dout_iovec_count", "dout_xfer_len", "din_iovec_count", "din_xfer_len", "dout_xferp", "timeout", "flags",
          "usr_ptr"] ++
        (match x with
         | none => nf "response" ++ nf "din_xferp"
         | some same =>
           if !same then changed :: f "guard"
           else nf "response_len" ++ nf "response" ++ nf "din_xferp" ++ nf "driver_status" ++ nf "transport_status" ++
             nf "device_status" ++ nf "retry_delay" ++ nf "info" ++ nf "duration" ++ nf "response_len" ++ nf "din_resid" ++
             nf "dout_resid" ++ nf "generated_tag") ++ [sc]
    else [val, sc]

/-- SG_IO, src/scsi.c:77-93 and `decode_sg_io`, src/scsi.c:21-36 -/
inductive Sg where
  | addr
  | v3 (e : Option Dir) (x : Option (Bool × Dir × Bool))
  | v4 (readable : Bool) (x : Option Bool)
  | other

def sgIo : Sg → List Tok
  | .addr => [val]
  | .v3 e x => sgIoV3 e x
  | .v4 e x => sgIoV4 e x
  | .other => [ao, val, ac]

/-! ## src/userfaultfd.c -/

/-- UFFDIO_API, src/userfaultfd.c:49-90: `e` and `x` are the features -/
def uffdApi (e : Option Nat) (failed : Bool) (x : Option Nat) : List Tok :=
  match e with
  | none => [val]
  | some feat =>
    [so] ++ fs ["api", "features"] ++
      (if failed then [] else match x with
        | none => []
        | some feat' => opt (feat' != feat) (changed :: f "features") ++ nf "ioctls") ++ [sc]

/-- UFFDIO_COPY, src/userfaultfd.c:92-120, UFFDIO_REGISTER, src/userfaultfd.c:122-150, UFFDIO_ZEROPAGE, src/userfaultfd.c:163-188,
UFFDIO_CONTINUE, src/userfaultfd.c:208-233, UFFDIO_POISON, src/userfaultfd.c:235-260: `pre` on entering, one more member on exiting -/
def uffdTwo (pre : List Tok) (n : String) (readable failed readable' : Bool) : List Tok :=
  if readable then [so] ++ pre ++ opt (!failed && readable') (nf n) ++ [sc] else [val]

def uffdCopy := uffdTwo (fs ["dst", "src", "len", "mode"]) "copy"
def uffdRange := uffdTwo (name "range" :: st ["start", "len"] ++ nf "mode")

/-! ## src/ptp.c, src/rtc.c -/

/-- `print_ptp_clock_time`, src/ptp.c:19-34; `r`: the reserved word is not zero -/
def ptpTime (r : Bool) : List Tok := [so] ++ fs ["sec", "nsec"] ++ opt r (nf "reserved") ++ [sc]

/-- `print_ptp_clock_time3_am`, src/ptp.c:44-59 -/
def ptpTime3 (r : Nat → Bool) (i : Nat) : List Tok :=
  [ao] ++ ptpTime (r (3 * i)) ++ [next] ++ ptpTime (r (3 * i + 1)) ++ [next] ++ ptpTime (r (3 * i + 2)) ++ [ac]

/-- PTP_SYS_OFFSET, src/ptp.c:181-214: `rsv` if the reserved words are not zero -/
def ptpSysOffset (readable : Bool) (rsv : Option Arr) (failed readable' : Bool) (ts : Arr) (r : Nat → Bool) : List Tok :=
  if readable then
    [so] ++ f "n_samples" ++ (match rsv with | none => [] | some a => next :: name "rsv" :: arr plain a) ++
      (if failed then []
       else if readable' then next :: name "ts" :: arr (fun i => ptpTime (r i)) ts
       else [next, val]) ++ [sc]
  else [val]

/-- PTP_SYS_OFFSET_EXTENDED, src/ptp.c:303-337 -/
def ptpSysOffsetExtended (readable : Bool) (rsv : Option Arr) (failed readable' : Bool) (ts : Arr) (r : Nat → Bool) : List Tok :=
  if readable then
    [so] ++ fs ["n_samples", "clockid"] ++ (match rsv with | none => [] | some a => next :: name "rsv" :: arr plain a) ++
      (if failed then []
       else if readable' then next :: name "ts" :: arr (ptpTime3 r) ts
       else [next, val]) ++ [sc]
  else [val]

/-- PTP_PIN_GETFUNC, PTP_PIN_GETFUNC2, PTP_PIN_SETFUNC and PTP_PIN_SETFUNC2, src/ptp.c:216-273 -/
def ptpPin (get v2 readable : Bool) (rsv : Option Arr) (failed readable' : Bool) : List Tok :=
  let r := opt v2 (match rsv with | none => [] | some a => next :: name "rsv" :: arr plain a)
  if readable then
    [so] ++ f "index" ++
      if get then
        r ++ if failed then [sc] else if !readable' then [next, val, sc] else nf "name" ++ nf "func" ++ nf "chan" ++ [sc]
      else nf "func" ++ nf "chan" ++ r ++ [sc]
  else [val]

/-- `decode_rtc_param`, src/rtc.c:135-177, with RTC_PARAM_GET and RTC_PARAM_SET, src/rtc.c:226-232: `e` and `x` tell whether the padding is
not zero -/
def rtcParam (get : Bool) (e : Option Bool) (x : Option Bool) : List Tok :=
  match e with
  | none => [val]
  | some pad =>
    [so] ++ f "param" ++ opt (!get) (nf "uvalue") ++ nf "index" ++ opt pad (nf "__pad") ++ [sc] ++
      opt get (changed ::
        match x with
        | none => [val]
        | some pad' => [so] ++ f "uvalue" ++ opt pad' (nf "__pad") ++ [sc])

/-! ## file systems -/

/-- `print_fiemap_extent`, src/fs_f_ioctl.c:16-33 -/
def fiemapExtent (_ : Nat) : List Tok := st ["fe_logical", "fe_physical", "fe_length", "fe_flags"]

/-- `decode_fiemap`, src/fs_f_ioctl.c:35-82 -/
def fiemap (readable failed readable' brief : Bool) (ext : Arr) : List Tok :=
  if readable then
    st ["fm_start", "fm_length", "fm_flags", "fm_extent_count"] ++
      if failed then []
      else changed ::
        if readable' then
          [so] ++ fs ["fm_flags", "fm_mapped_extents"] ++
            (if brief then [next, val]
             else next :: name "fm_extents" :: arr fiemapExtent ext) ++ [sc]
        else [val]
  else [val]

/-- `print_file_dedupe_range_info`, src/fs_0x94_ioctl.c:30-59, on entering; the "..." it prints in abbreviated mode is that of `Arr` -/
def dedupeIn (_ : Nat) : List Tok := st ["dest_fd", "dest_offset"]

/-- `print_file_dedupe_range_info`, src/fs_0x94_ioctl.c:30-59, on exiting -/
def dedupeOut (_ : Nat) : List Tok := st ["bytes_deduped", "status"]

/-- `decode_file_dedupe_range`, src/fs_0x94_ioctl.c:61-108; `rc` as `print_array` tells -/
def dedupe (e : Option (Arr × Bool)) (failed : Bool) (x : Option Arr) : List Tok :=
  match e with
  | none => [val]
  | some (a, rc) =>
    [so] ++ fs ["src_offset", "src_length", "dest_count"] ++ next :: name "info" :: arr dedupeIn a ++ [sc] ++
      if !rc || failed then []
      else changed ::
        match x with
        | none => [val]
        | some b => so :: name "info" :: arr dedupeOut b ++ [sc]

/-! ## src/ioctl.c -/

/-- `SYS_FUNC(ioctl)`, src/ioctl.c:503-561, if the decoder of the command printed the third argument -/
def ioctl (arg : List Tok) : List Tok := [val, next, val, next] ++ arg

/-- what the decoder of a command returns: 0, RVAL_IOCTL_DECODED or RVAL_DECODED -/
inductive Ret where
  | zero | ioctlDecoded | decoded

/-- `SYS_FUNC(ioctl)`, src/ioctl.c:503-561: `e` and `x` are what the decoder of the command prints and returns on entering and on exiting;
the generic printer of the third argument is called if the decoder has not printed it -/
def sysIoctl (e x : List Tok × Ret) : List Tok :=
  [val, next, val] ++ e.1 ++
    match e.2 with
    | .ioctlDecoded => []
    | .decoded => [next, val]
    | .zero =>
      x.1 ++
        match x.2 with
        | .ioctlDecoded => []
        | _ => [next, val]

/-! ## calls with several arguments -/

/-- `decode_lsm_ctx`, src/lsm.c:48-79; `ctx i`: there are bytes to show -/
def lsmCtx (ctx : Nat → Bool) (i : Nat) : List Tok := [so] ++ fs ["id", "flags", "len", "ctx_len"] ++ opt (ctx i) (nf "ctx") ++ [sc]

/-- `lsm_get_self_attr`, src/lsm.c:126-182: `e` is the size on entering if all that is needed can be read, `x` on exiting; the records go as
`seq` tells -/
def lsmGet (single : Bool) (e x : Option Nat) (seq : Arr) (ctx : Nat → Bool) : List Tok :=
  [val, next] ++
    match e with
    | none => [val, next, val, next, val]
    | some n =>
      opt single (st ["id"]) ++
        match x with
        | none => opt (!single) [val] ++ [next, val, next, val]
        | some m =>
          opt single [changed] ++ arr (lsmCtx ctx) seq ++ [next, ao, val] ++ opt (n != m) [changed, val] ++ [ac, next, val]

/-- `print_sched_attr` as `sched_setattr` calls it, src/sched.c:110-184: nothing read, `brief` (a size below the first version), or all;
`pol`, `par`, `util` which groups of members are shown; `more` if the size is larger -/
inductive Attr where
  | addr
  | brief (more : Bool)
  | all (pol par util more : Bool)

def schedAttr : Attr → List Tok
  | .addr => [val]
  | .brief more => [so] ++ f "size" ++ opt more [next, val] ++ [sc]
  | .all pol par util more =>
    [so] ++ f "size" ++ opt pol (nf "sched_policy") ++ nf "sched_flags" ++
      opt par (nf "sched_nice" ++ nf "sched_priority" ++ nf "sched_runtime" ++ nf "sched_deadline" ++ nf "sched_period") ++
      opt util (nf "sched_util_min" ++ nf "sched_util_max") ++ opt more [next, val] ++ [sc]

/-- `sched_setattr`, src/sched.c:186-212; `e2big`: the call failed with E2BIG and the size can be read -/
def schedSetattr (a : Attr) (e2big : Bool) : List Tok :=
  [val, next] ++ schedAttr a ++ opt e2big (changed :: st ["size"]) ++ [next, val]

/-- `print_user_desc` for `get_thread_area`, src/ldt.c:23-125: `e` and `x` are the entry number -/
def getThreadArea (null : Bool) (e : Option Nat) (failed : Bool) (x : Option Nat) (lm : Bool) : List Tok :=
  let rest := nf "base_addr" ++ nf "limit" ++ nf "seg_32bit" ++ nf "contents" ++ nf "read_exec_only" ++ nf "limit_in_pages" ++
    nf "seg_not_present" ++ nf "useable" ++ opt lm (nf "lm") ++ [sc]
  if null then [val]
  else
    match e with
    | none =>
      val :: if failed then [] else match x with
        | none => []
        | some _ => [changed, so] ++ f "entry_number" ++ rest
    | some n =>
      [so] ++ f "entry_number" ++
        if failed then [next, val, sc]
        else match x with
          | none => [next, val, sc]
          | some m => opt (m != n) [changed, val] ++ rest

/-- `clone3`, src/clone.c:241-404: on entering the members shown according to the flags, `tail` if the bytes beyond are not all zero; `cont`
tells whether the decoder goes on on exiting -/
structure Clone where
  pidfd : Bool
  ctid : Bool
  ptid : Bool
  tls : Bool
  setTid : Option Arr
  cgroup : Bool
  tail : Bool
  cont : Bool

/-- src/clone.c:305-326 -/
def setTidText : Option Arr → List Tok
  | none => []
  | some a => next :: name "set_tid" :: arr plain a ++ nf "set_tid_size"

def clone3 (e : Option Clone) (failed : Bool) (x : Option (Bool × Bool × Bool)) : List Tok :=
  (match e with
   | none => [val]
   | some c =>
     [so] ++ f "flags" ++ opt c.pidfd (nf "pidfd") ++ opt c.ctid (nf "child_tid") ++ opt c.ptid (nf "parent_tid") ++ nf "exit_signal" ++
       nf "stack" ++ nf "stack_size" ++ opt c.tls (nf "tls") ++
       setTidText c.setTid ++
       opt c.cgroup (nf "cgroup") ++ opt c.tail [next, val] ++ [sc] ++
       if !c.cont || failed then []
       else match x with
         | none => [changed, val]
         | some (pidfd, ptid, tail) =>
           opt pidfd ([changed, so] ++ f "pidfd") ++
             opt ptid ((if pidfd then [next] else [changed, so]) ++ f "parent_tid") ++
             opt tail ((if pidfd || ptid then [next] else [changed, so]) ++ [val]) ++
             opt (pidfd || ptid || tail) [sc]) ++ [next, val]

/-- `ioctl_decode_unknown_type`, src/ioctl.c:325-371: `before` and `after` as the direction bits tell; the printers print one value each, the
address if the memory cannot be read -/
def ioctlUnknown (before after readable : Bool) : List Tok :=
  opt before [val] ++ if !after || (before && !readable) then [] else opt before [changed] ++ [val]

/-- `print_struct_seccomp_notif`, src/seccomp_ioctl.c:35-75: `e` tells whether there is a byte that is not zero -/
def seccompNotif (e : Option Bool) (readable' : Bool) : List Tok :=
  let s := [so] ++ fs ["id", "pid", "flags"] ++ [next, name "data"] ++ st ["nr", "arch", "instruction_pointer", "args"] ++ [sc]
  match e with
  | none => [val]
  | some nz => opt nz (s ++ [changed]) ++ if readable' then s else [val]

end Strace.Gram
