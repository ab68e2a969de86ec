import Verif.Py.Bytes
/-!
Model of the two decoders of Bruker maps, `py_parse_hypermap` of `rsciio/bruker/_api.py` and
`rsciio/bruker/unbcf_fast.pyx`, and of `estimate_map_depth`.

A map is the list of its pixels, row by row, each a list of counts. `M` is the number of values of the
number type of the map (256 for `uint8`).

Simplified: a stream is the list of the blocks that have not been read, the bytes of the buffer from the
current offset on, and `size - offset` (both decoders use nothing else). Numbers are little endian.
Reading or writing outside the memory of C arrays is the error `runtimeError` (it is undefined). The C
conversions to `int` of gains are left out, since counts are kept modulo `M ≤ 2 ^ 32` anyway; only bits 40
and above of a gain are lost (lines 46-56 of `unbcf_fast.pyx`).
-/
namespace Verif.Hypermap

/-- Blocks not read, buffer from the current offset on, `size - offset`. -/
structure Src where
  blocks : List (List UInt8)
  buf : List UInt8
  left : Int

/-- `unbcf_fast.pyx` lines 129-137; `_api.py` lines 1119-1121, 1126-1128, 1157-1159, 1232-1234. -/
def load (chnk : Nat) (s : Src) : Py Src :=
  match s.blocks with
  | [] => .error .stopIteration
  | b :: bs => .ok ⟨bs, s.buf ++ b, s.left + chnk⟩

/-- `offset += k`. -/
def adv (k : Nat) (s : Src) : Src := ⟨s.blocks, s.buf.drop k, s.left - k⟩

/-- `_api.py` lines 1118, 1125, 1156, 1231. -/
def pyNeed (chnk n : Nat) (s : Src) : Py Src := if s.left ≤ (n : Int) then load chnk s else .ok s

/-- `unbcf_fast.pyx` lines 89, 100, 107, 124. -/
def cyNeed (chnk n : Nat) (s : Src) : Py Src := if s.left < (n : Int) then load chnk s else .ok s

abbrev Map := List (List Nat)

/-- `ceil(a / b)`. -/
def ceilDiv (a b : Nat) : Nat := (a + b - 1) / b

/-! ### The compiled decoder -/

/-- `read_16`, `read_32`: lines 99-111. -/
def cyRead (chnk n : Nat) (s : Src) : Py (Nat × Src) :=
  match cyNeed chnk n s with
  | .error e => .error e
  | .ok s => if s.buf.length < n then .error .runtimeError else .ok (leVal (s.buf.take n), adv n s)

/-- `skip`: lines 85-91. -/
def cySkip (chnk n : Nat) (s : Src) : Py Src :=
  match cyNeed chnk n s with
  | .error e => .error e
  | .ok s => .ok (adv n s)

/-- `ptr_to`: lines 119-127. The pointer gives access to the rest of the buffer. -/
def cyPtr (chnk n : Nat) (s : Src) : Py (List UInt8 × Src) :=
  match cyNeed chnk n s with
  | .error e => .error e
  | .ok s => .ok (s.buf, adv n s)

/-- `src[i]`. -/
def at' (src : List UInt8) (i : Nat) : Py Nat :=
  match src[i]? with
  | none => .error .runtimeError
  | some b => .ok b.toNat

/-- `read_16(&src[i])` and the like. -/
def num (src : List UInt8) (i w : Nat) : Py Nat :=
  let bs := (src.drop i).take w
  if bs.length < w then .error .runtimeError else .ok (leVal bs)

/-- `if c < cutoff: dest[y, x, c] += v`. -/
def bump (M cutoff : Nat) (dest : List Nat) (c v : Nat) : List Nat :=
  if c < cutoff then dest.modify c fun a => (a + v) % M else dest

/-- The channel of pulse `i` in 16-bit data, line 297. -/
def chan16 (src : List UInt8) (i : Nat) : Py Nat := num src (2 * i) 2

/-- The channel of pulse `i` in 12-bit data, lines 276-283. -/
def chan12 (src : List UInt8) (i : Nat) : Py Nat :=
  let a := fun k => at' src (6 * (i / 4) + k)
  if i % 4 = 0 then match a 0, a 1 with
    | .ok b0, .ok b1 => .ok (b0 / 16 + b1 * 16)
    | .error e, _ => .error e
    | _, .error e => .error e
  else if i % 4 = 1 then match a 0, a 3 with
    | .ok b0, .ok b3 => .ok ((b0 * 256 + b3) % 4096)
    | .error e, _ => .error e
    | _, .error e => .error e
  else if i % 4 = 2 then match a 2, a 5 with
    | .ok b2, .ok b5 => .ok (b2 * 16 + b5 / 16)
    | .error e, _ => .error e
    | _, .error e => .error e
  else match a 5, a 4 with
    | .ok b5, .ok b4 => .ok ((b5 * 256 + b4) % 4096)
    | .error e, _ => .error e
    | _, .error e => .error e

/-- The loops of lines 275-285 and 296-299, from pulse `i` on. -/
def cyPulses (M cutoff : Nat) (chan : Nat → Py Nat) : Nat → Nat → List Nat → Py (List Nat)
  | _, 0, dest => .ok dest
  | i, n + 1, dest =>
    match chan i with
    | .error e => .error e
    | .ok c => cyPulses M cutoff chan (i + 1) n (bump M cutoff dest c 1)

/-- The loops over the channels of a bunch, lines 235-241, 247-249, 252-255, 258-261. -/
def cyFill (M cutoff : Nat) (val : Nat → Py Nat) (gain channel : Nat) : Nat → Nat → List Nat → Py (List Nat)
  | _, 0, dest => .ok dest
  | i, n + 1, dest =>
    if i + channel < cutoff then match val i with
      | .error e => .error e
      | .ok v => cyFill M cutoff val gain channel (i + 1) n (bump M cutoff dest (i + channel) (v + gain))
    else cyFill M cutoff val gain channel (i + 1) n dest

/-- The value `i` of a bunch, lines 238-261. -/
def cyVal (size : Nat) (src : List UInt8) (i : Nat) : Py Nat :=
  if size = 1 then match at' src (i / 2) with
    | .error e => .error e
    | .ok b => .ok (if i % 2 = 0 then b % 16 else b / 16)
  else if size = 2 then at' src i
  else if size = 4 then num src (i * 2) 2
  else num src (i * 2) 4

/-- One round of `unpack_instructed`, lines 220-264: the pixel, the number of channels, and the number
of bytes after the head of two bytes. -/
def cyBunch (M cutoff : Nat) (src : List UInt8) (channel : Nat) (dest : List Nat) :
    Py (List Nat × Nat × Nat) :=
  match src with
  | size :: channels :: t =>
    let size := size.toNat
    let n := channels.toNat
    if size = 0 then .ok (dest, n, 0)
    else
      match num t 0 (if size = 1 then 1 else if size = 2 then 2 else if size = 4 then 4 else 5) with
      | .error e => .error e
      | .ok gain =>
        match cyFill M cutoff (cyVal size (t.drop size)) gain channel 0 n dest with
        | .error e => .error e
        | .ok dest => .ok (dest, n, size + if size = 1 then (n + 1) / 2 else n * size / 2)
  | _ => .error .runtimeError

/-- `unpack_instructed`, lines 205-264; `n` is `data_size - offset`. -/
def cyInstr (M cutoff : Nat) (n : Nat) (src : List UInt8) (channel : Nat) (dest : List Nat) :
    Py (List Nat) :=
  if n = 0 then .ok dest
  else match cyBunch M cutoff src channel dest with
    | .error e => .error e
    | .ok (dest, k, len) => cyInstr M cutoff (n - (2 + len)) (src.drop (2 + len)) (channel + k) dest
termination_by n
decreasing_by omega

/-- The additional pulses, lines 191-196. -/
def cyExtra (chnk M cutoff : Nat) : Nat → Src → List Nat → Py (List Nat × Src)
  | 0, s, dest => .ok (dest, s)
  | n + 1, s, dest =>
    match cyRead chnk 2 s with
    | .error e => .error e
    | .ok (c, s) => cyExtra chnk M cutoff n s (bump M cutoff dest c 1)

/-- The body of a pixel, lines 168-198. `data_size` of `unpack_instructed` is an `uint16_t`. -/
def cyContent (chnk M cutoff flag n size : Nat) (s : Src) (dest : List Nat) : Py (List Nat × Src) :=
  if flag = 0 then match cyPtr chnk size s with
    | .error e => .error e
    | .ok (src, s) => match cyPulses M cutoff (chan16 src) 0 n dest with
      | .error e => .error e
      | .ok dest => .ok (dest, s)
  else if flag = 1 then match cyPtr chnk size s with
    | .error e => .error e
    | .ok (src, s) => match cyPulses M cutoff (chan12 src) 0 n dest with
      | .error e => .error e
      | .ok dest => .ok (dest, s)
  else if size < 4 then .error .runtimeError
  else match cyPtr chnk (size - 4) s with
    | .error e => .error e
    | .ok (src, s) => match cyInstr M cutoff ((size - 4) % 65536) src 0 dest with
      | .error e => .error e
      | .ok dest =>
        if 0 < n then match cyRead chnk 4 s with
          | .error e => .error e
          | .ok (_, s) => cyExtra chnk M cutoff n s dest
        else match cySkip chnk 4 s with
          | .error e => .error e
          | .ok s => .ok (dest, s)

/-- The header of a pixel, lines 160-167: `x`, `flag`, number of pulses, size. -/
def cyHead (chnk : Nat) (s : Src) : Py ((Nat × Nat × Nat × Nat) × Src) :=
  match cyRead chnk 4 s with
  | .error e => .error e
  | .ok (x, s) => match cyRead chnk 2 s with
    | .error e => .error e
    | .ok (_, s) => match cyRead chnk 2 s with
      | .error e => .error e
      | .ok (_, s) => match cySkip chnk 4 s with
        | .error e => .error e
        | .ok s => match cyRead chnk 2 s with
          | .error e => .error e
          | .ok (flag, s) => match cyRead chnk 2 s with
            | .error e => .error e
            | .ok (_, s) => match cyRead chnk 2 s with
              | .error e => .error e
              | .ok (n, s) => match cyRead chnk 4 s with
                | .error e => .error e
                | .ok (size, s) => .ok ((x, flag, n, size), s)

/-- The pixels of a line, lines 159-198. `H`, `W`, `cutoff`: the shape. -/
def cyPixels (chnk M H W cutoff ds y : Nat) : Nat → Src → Map → Py (Map × Src)
  | 0, s, m => .ok (m, s)
  | n + 1, s, m =>
    match cyHead chnk s with
    | .error e => .error e
    | .ok ((x, flag, k, size), s) =>
      if y / ds < H ∧ x / ds < W then
        match m[y / ds * W + x / ds]? with
        | none => .error .runtimeError
        | some dest => match cyContent chnk M cutoff flag k size s dest with
          | .error e => .error e
          | .ok (dest, s) => cyPixels chnk M H W cutoff ds y n s (m.set (y / ds * W + x / ds) dest)
      else .error .runtimeError

/-- The lines, from line `y` on: lines 157-198. -/
def cyLines (chnk M H W cutoff ds : Nat) : Nat → Nat → Src → Map → Py Map
  | _, 0, _, m => .ok m
  | y, n + 1, s, m =>
    match cyRead chnk 4 s with
    | .error e => .error e
    | .ok (k, s) => match cyPixels chnk M H W cutoff ds y k s m with
      | .error e => .error e
      | .ok (m, s) => cyLines chnk M H W cutoff ds (y + 1) n s m

/-- `parse_to_numpy`, lines 304-334, and lines 154-156. -/
def cyParse (blocks : List (List UInt8)) (chnk M H W cutoff ds : Nat) : Py Map :=
  match blocks with
  | [] => .error .stopIteration
  | b :: bs =>
    match cyRead chnk 4 ⟨bs, b, chnk⟩ with
    | .error e => .error e
    | .ok (height, s) => match cyRead chnk 4 s with
      | .error e => .error e
      | .ok (_, s) =>
        -- `seek(0x1A0)`: 8 bytes have been read
        cyLines chnk M H W cutoff ds 0 height (adv (0x1a0 - 8) s) (List.replicate (H * W) (List.replicate cutoff 0))

/-! ### The Python decoder -/

/-- `np.frombuffer(data, dtype=np.uint16)`. -/
def words16 : List UInt8 → Py (List Nat)
  | [] => .ok []
  | [_] => .error .valueError
  | a :: b :: t => match words16 t with
    | .error e => .error e
    | .ok ws => .ok (leVal [a, b] :: ws)

/-- `np.frombuffer(data1, dtype="<u2").copy().byteswap(True)`, as bytes. -/
def swap : List UInt8 → Py (List UInt8)
  | [] => .ok []
  | [_] => .error .valueError
  | a :: b :: t => match swap t with
    | .error e => .error e
    | .ok bs => .ok (b :: a :: bs)

/-- `data2[mask]` with `mask[0::6] = mask[5::6] = False`. -/
def masked : Nat → List UInt8 → List UInt8
  | _, [] => []
  | i, b :: t => if i % 6 = 0 ∨ i % 6 = 5 then masked (i + 1) t else b :: masked (i + 1) t

/-- `np.frombuffer(.., dtype=">u2", count=n)`. -/
def words16be : Nat → List UInt8 → Py (List Nat)
  | 0, _ => .ok []
  | n + 1, a :: b :: t => match words16be n t with
    | .error e => .error e
    | .ok ws => .ok (leVal [b, a] :: ws)
  | _ + 1, _ => .error .valueError

/-- `exp16[0::2] >>= 4; exp16 &= 0x0FFF`, from index `i` on. -/
def shifted : Nat → List Nat → List Nat
  | _, [] => []
  | i, v :: t => (if i % 2 = 0 then v / 16 else v) % 4096 :: shifted (i + 1) t

/-- Lines 1168-1183. -/
def py12 (data : List UInt8) (n : Nat) : Py (List Nat) :=
  match swap data with
  | .error e => .error e
  | .ok bs => match words16be n (masked 0 (bs.flatMap fun b => [b, b])) with
    | .error e => .error e
    | .ok ws => .ok (shifted 0 ws)

/-- `np.bincount(ps, minlength=m)`. -/
def bincount (ps : List Nat) (m : Nat) : List Nat :=
  (List.range (ps.foldr (fun p a => max (p + 1) a) m)).map fun c => ps.count c

/-- `strct_unp("<" + n * code, ..)` with codes of `w` bytes. -/
def codes (w : Nat) : Nat → List UInt8 → List Nat
  | 0, _ => []
  | n + 1, bs => leVal (bs.take w) :: codes w n (bs.drop w)

/-- One round of lines 1194-1223: the values and the number of bytes after the head of two bytes. -/
def pyBunch (buf : List UInt8) : Py (List Nat × Nat) :=
  match buf with
  | size :: channels :: t =>
    let size := size.toNat
    let n := channels.toNat
    if size = 0 then .ok (List.replicate n 0, 0)
    else if size = 1 ∨ size = 2 ∨ size = 4 ∨ size = 8 then
      if t.length < size then .error .structError
      else
        let gain := leVal (t.take size)
        let t := t.drop size
        if size = 1 then
          let length := (n + 1) / 2
          if t.length < length then .error .structError
          else .ok (((t.take length).flatMap fun b => [b.toNat % 16 + gain, b.toNat / 16 + gain]).take n,
            size + length)
        else
          let length := n * size / 2
          if t.length < length then .error .structError
          else .ok ((codes (size / 2) n t).map (· + gain), size + length)
    else .error .keyError
  | _ => .error .structError

/-- The loop of lines 1189-1223; `n` is `the_end - offset`. The values, and the number of bytes. -/
def pyInstr (n : Nat) (buf : List UInt8) : Py (List Nat × Nat) :=
  if n = 0 then .ok ([], 0)
  else match pyBunch buf with
    | .error e => .error e
    | .ok (vs, len) => match pyInstr (n - (2 + len)) (buf.drop (2 + len)) with
      | .error e => .error e
      | .ok (ws, k) => .ok (vs ++ ws, 2 + len + k)
termination_by n
decreasing_by omega

/-- `for i in add_pulses: pixel[i] += 1`. -/
def addPulses : List Nat → List Nat → Py (List Nat)
  | [], pixel => .ok pixel
  | c :: cs, pixel => if c < pixel.length then addPulses cs (pixel.modify c (· + 1)) else .error .indexError

/-- Lines 1249-1252: `add` is `dwn_factor != 1`, `lst` is whether the pixel is a list (a number too large
for the type is then an `OverflowError`; arrays wrap around). -/
def pyStore (M : Nat) (add lst : Bool) (ch : Nat) (old pixel : List Nat) : Py (List Nat) :=
  match (if (pixel.take ch).length = ch then .ok (pixel.take ch)
    else match pixel.take ch with
      | [v] => .ok (List.replicate ch v)
      | _ => .error .valueError : Py (List Nat)) with
  | .error e => .error e
  | .ok vs =>
    if add then .ok (List.zipWith (fun a v => (a + v) % M) old vs ++ old.drop ch)
    else if lst ∧ vs.any (fun v => M ≤ v) then .error .overflowError
    else .ok (vs.map (· % M) ++ old.drop ch)

/-- The header of a pixel: lines 1142-1151. -/
structure Head where
  x : Nat
  chan1 : Nat
  chan2 : Nat
  flag : Nat
  pulses : Nat
  size : Nat

def headOf (bs : List UInt8) : Head :=
  ⟨leVal (bs.take 4), leVal ((bs.drop 4).take 2), leVal ((bs.drop 6).take 2), leVal ((bs.drop 12).take 2),
    leVal ((bs.drop 16).take 2), leVal ((bs.drop 18).take 4)⟩

/-- The body of a pixel, lines 1156-1243: the pixel, and whether it is a list. -/
def pyContent (chnk : Nat) (h : Head) (s : Src) : Py ((List Nat × Bool) × Src) :=
  match pyNeed chnk h.size s with
  | .error e => .error e
  | .ok s =>
    if h.flag = 0 then match words16 (s.buf.take h.size) with
      | .error e => .error e
      | .ok ps =>
        if h.chan1 = 0 then .error .valueError
        else .ok ((bincount ps (h.chan1 - 1), false), adv h.size s)
    else if h.flag = 1 then match py12 (s.buf.take h.size) h.pulses with
      | .error e => .error e
      | .ok ps =>
        if h.chan1 = 0 then .error .valueError
        else .ok ((bincount ps (h.chan1 - 1), false), adv h.size s)
    else match pyInstr (h.size - 4) s.buf with
      | .error e => .error e
      | .ok (vs, k) =>
        let s := adv k s
        let vs := vs ++ List.replicate (h.chan1 - h.chan2) 0
        if 0 < h.pulses then
          if s.buf.length < 4 then .error .structError
          else
            let size := leVal (s.buf.take 4)
            match pyNeed chnk size (adv 4 s) with
            | .error e => .error e
            | .ok s =>
              if (s.buf.take size).length ≠ 2 * h.pulses then .error .structError
              else match addPulses (codes 2 h.pulses (s.buf.take size)) vs with
                | .error e => .error e
                | .ok vs => .ok ((vs, true), adv size s)
        else .ok ((vs, true), adv 4 s)

/-- The pixels of a line, lines 1124-1252. -/
def pyPixels (chnk M width cutoff ds y : Nat) : Nat → Src → Map → Py (Map × Src)
  | 0, s, m => .ok (m, s)
  | n + 1, s, m =>
    match pyNeed chnk 22 s with
    | .error e => .error e
    | .ok s =>
      if s.buf.length < 22 then .error .structError
      else
        let h := headOf (s.buf.take 22)
        let j := h.x / ds + ceilDiv width ds * (y / ds)
        match pyContent chnk h (adv 22 s) with
        | .error e => .error e
        | .ok ((pixel, lst), s) => match m[j]? with
          | none => .error .valueError
          | some old => match pyStore M (ds ≠ 1) lst (min cutoff h.chan1) old pixel with
            | .error e => .error e
            | .ok new => pyPixels chnk M width cutoff ds y n s (m.set j new)

/-- The lines, from line `y` on: lines 1117-1252. -/
def pyLines (chnk M width cutoff ds : Nat) : Nat → Nat → Src → Map → Py Map
  | _, 0, _, m => .ok m
  | y, n + 1, s, m =>
    match pyNeed chnk 4 s with
    | .error e => .error e
    | .ok s =>
      if s.buf.length < 4 then .error .structError
      else match pyPixels chnk M width cutoff ds y (toSigned 4 (leVal (s.buf.take 4))).toNat (adv 4 s) m with
        | .error e => .error e
        | .ok (m, s) => pyLines chnk M width cutoff ds (y + 1) n s m

/-- `py_parse_hypermap`, lines 1108-1258. `H`, `W`, `cutoff`: the shape. -/
def pyParse (blocks : List (List UInt8)) (chnk M H W cutoff ds : Nat) : Py Map :=
  match blocks with
  | [] => .error .stopIteration
  | b :: bs =>
    if b.length < 8 then .error .structError
    else
      let height := (toSigned 4 (leVal (b.take 4))).toNat
      let width := (toSigned 4 (leVal ((b.drop 4).take 4))).toNat
      match pyLines chnk M width cutoff ds 0 height (adv 0x1a0 ⟨bs, b, chnk⟩)
        (List.replicate (H * W) (List.replicate cutoff 0)) with
      | .error e => .error e
      | .ok m =>
        let n := ceilDiv height ds * ceilDiv width ds
        .ok (m.take n ++ List.replicate (n - m.length) (List.replicate cutoff 0))

/-! ### The number type of a map -/

/-- `estimate_map_depth`, lines 797-835: the bits of the chosen type. `top` is the largest count of the
sum spectrum. -/
def depth (top width height ds : Nat) (forNumpy : Bool) : Nat :=
  let roof := top / width / height * 2 * ds * ds
  let signed := forNumpy ∧ 1 < ds
  if 0xff < roof then
    if 0xffff < roof then
      if signed then (if 0xefffffff < roof then 64 else 32) else 32
    else if signed then (if 0xefff < roof then 32 else 16) else 16
  else if signed then (if 0xef < roof then 16 else 8) else 8

end Verif.Hypermap
