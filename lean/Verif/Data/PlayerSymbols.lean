/-! Generated by scripts/gen_symbols.py from player/iivision.dbg: the attributes of the `sym`
lines of the file, in order.  A text is a list of numbers, each with up to 32 characters in
base 256, first character least significant. -/

namespace IIVision

/-- player/iivision.dbg, sym lines 0-31 -/
def symLines0 : List (List (List Nat × List Nat)) := [
  [([0x6469], [0x30]), ([0x656d616e], [0x224e4e4f4345534f4c4322]), ([0x657a697372646461], [0x6574756c6f736261]), ([0x65706f6373], [0x31]), ([0x666564], [0x313237]), ([0x6c6176], [0x434241427830]), ([0x676573], [0x30]), ([0x65707974], [0x62616c])],
  [([0x6469], [0x31]), ([0x656d616e], [0x22656c6261746d7261705f7469786522]), ([0x657a697372646461], [0x6574756c6f736261]), ([0x65706f6373], [0x31]), ([0x666564], [0x3134]), ([0x666572], [0x39303131]), ([0x6c6176], [0x354241427830]), ([0x676573], [0x30]), ([0x65707974], [0x62616c])],
  [([0x6469], [0x32]), ([0x656d616e], [0x22444022]), ([0x657a697372646461], [0x6574756c6f736261]), ([0x746e65726170], [0x33]), ([0x666564], [0x36343231]), ([0x666572], [0x323432]), ([0x6c6176], [0x423741427830]), ([0x676573], [0x30]), ([0x65707974], [0x62616c])],
  [([0x6469], [0x33]), ([0x656d616e], [0x226b63615f706f22]), ([0x657a697372646461], [0x6574756c6f736261]), ([0x65706f6373], [0x31]), ([0x666564], [0x303237]), ([0x6c6176], [0x323741427830]), ([0x676573], [0x30]), ([0x65707974], [0x62616c])],
  [([0x6469], [0x34]), ([0x656d616e], [0x22314022]), ([0x657a697372646461], [0x6574756c6f736261]), ([0x746e65726170], [0x36]), ([0x666564], [0x393438]), ([0x6c6176], [0x433641427830]), ([0x676573], [0x30]), ([0x65707974], [0x62616c])],
  [([0x6469], [0x35]), ([0x656d616e], [0x22304022]), ([0x657a697372646461], [0x6574756c6f736261]), ([0x746e65726170], [0x36]), ([0x666564], [0x303936]), ([0x666572], [0x33353031]), ([0x6c6176], [0x373641427830]), ([0x676573], [0x30]), ([0x65707974], [0x62616c])],
  [([0x6469], [0x36]), ([0x656d616e], [0x226574616e696d7265745f706f22]), ([0x657a697372646461], [0x6574756c6f736261]), ([0x65706f6373], [0x31]), ([0x666564], [0x31393131]), ([0x6c6176], [0x343641427830]), ([0x676573], [0x30]), ([0x65707974], [0x62616c])],
  [([0x6469], [0x37]), ([0x656d616e], [0x22444022]), ([0x657a697372646461], [0x6574756c6f736261]), ([0x746e65726170], [0x38]), ([0x666564], [0x3136362b383532]), ([0x666572], [0x3835322b383532]), ([0x6c6176], [0x313641427830]), ([0x676573], [0x30]), ([0x65707974], [0x62616c])],
  [([0x6469], [0x38]), ([0x656d616e], [0x2233365f656761705f36365f6b6369745f706f22]), ([0x657a697372646461], [0x6574756c6f736261]), ([0x65706f6373], [0x31]), ([0x666564], [0x34352b383532]), ([0x6c6176], [0x303341427830]), ([0x676573], [0x30]), ([0x65707974], [0x62616c])],
  [([0x6469], [0x39]), ([0x656d616e], [0x22444022]), ([0x657a697372646461], [0x6574756c6f736261]), ([0x746e65726170], [0x3031]), ([0x666564], [0x39392b343837]), ([0x666572], [0x3438372b343837]), ([0x6c6176], [0x443241427830]), ([0x676573], [0x30]), ([0x65707974], [0x62616c])],
  [([0x6469], [0x3031]), ([0x656d616e], [0x2233365f656761705f34365f6b6369745f706f22]), ([0x657a697372646461], [0x6574756c6f736261]), ([0x65706f6373], [0x31]), ([0x666564], [0x3234342b343837]), ([0x6c6176], [0x434639427830]), ([0x676573], [0x30]), ([0x65707974], [0x62616c])],
  [([0x6469], [0x3131]), ([0x656d616e], [0x22444022]), ([0x657a697372646461], [0x6574756c6f736261]), ([0x746e65726170], [0x3231]), ([0x666564], [0x3635392b32383331]), ([0x666572], [0x323833312b32383331]), ([0x6c6176], [0x394639427830]), ([0x676573], [0x30]), ([0x65707974], [0x62616c])],
  [([0x6469], [0x3231]), ([0x656d616e], [0x2233365f656761705f32365f6b6369745f706f22]), ([0x657a697372646461], [0x6574756c6f736261]), ([0x65706f6373], [0x31]), ([0x666564], [0x30362b32383331]), ([0x6c6176], [0x384339427830]), ([0x676573], [0x30]), ([0x65707974], [0x62616c])],
  [([0x6469], [0x3331]), ([0x656d616e], [0x22444022]), ([0x657a697372646461], [0x6574756c6f736261]), ([0x746e65726170], [0x3431]), ([0x666564], [0x343132312b323035]), ([0x666572], [0x3230352b323035]), ([0x6c6176], [0x354339427830]), ([0x676573], [0x30]), ([0x65707974], [0x62616c])],
  [([0x6469], [0x3431]), ([0x656d616e], [0x2233365f656761705f30365f6b6369745f706f22]), ([0x657a697372646461], [0x6574756c6f736261]), ([0x65706f6373], [0x31]), ([0x666564], [0x323733312b323035]), ([0x6c6176], [0x343939427830]), ([0x676573], [0x30]), ([0x65707974], [0x62616c])],
  [([0x6469], [0x3531]), ([0x656d616e], [0x22444022]), ([0x657a697372646461], [0x6574756c6f736261]), ([0x746e65726170], [0x3631]), ([0x666564], [0x3039382b31313231]), ([0x666572], [0x313132312b31313231]), ([0x6c6176], [0x313939427830]), ([0x676573], [0x30]), ([0x65707974], [0x62616c])],
  [([0x6469], [0x3631]), ([0x656d616e], [0x2233365f656761705f38355f6b6369745f706f22]), ([0x657a697372646461], [0x6574756c6f736261]), ([0x65706f6373], [0x31]), ([0x666564], [0x3333362b31313231]), ([0x6c6176], [0x303639427830]), ([0x676573], [0x30]), ([0x65707974], [0x62616c])],
  [([0x6469], [0x3731]), ([0x656d616e], [0x22444022]), ([0x657a697372646461], [0x6574756c6f736261]), ([0x746e65726170], [0x3831]), ([0x666564], [0x3930382b373033]), ([0x666572], [0x3730332b373033]), ([0x6c6176], [0x443539427830]), ([0x676573], [0x30]), ([0x65707974], [0x62616c])],
  [([0x6469], [0x3831]), ([0x656d616e], [0x2233365f656761705f36355f6b6369745f706f22]), ([0x657a697372646461], [0x6574756c6f736261]), ([0x65706f6373], [0x31]), ([0x666564], [0x3837352b373033]), ([0x6c6176], [0x433239427830]), ([0x676573], [0x30]), ([0x65707974], [0x62616c])],
  [([0x6469], [0x3931]), ([0x656d616e], [0x22444022]), ([0x657a697372646461], [0x6574756c6f736261]), ([0x746e65726170], [0x3032]), ([0x666564], [0x3036312b353837]), ([0x666572], [0x3538372b353837]), ([0x6c6176], [0x393239427830]), ([0x676573], [0x30]), ([0x65707974], [0x62616c])],
  [([0x6469], [0x3032]), ([0x656d616e], [0x2233365f656761705f34355f6b6369745f706f22]), ([0x657a697372646461], [0x6574756c6f736261]), ([0x65706f6373], [0x31]), ([0x666564], [0x3030342b353837]), ([0x6c6176], [0x384638427830]), ([0x676573], [0x30]), ([0x65707974], [0x62616c])],
  [([0x6469], [0x3132]), ([0x656d616e], [0x2233365f656761705f32355f6b6369745f706f22]), ([0x657a697372646461], [0x6574756c6f736261]), ([0x65706f6373], [0x31]), ([0x666564], [0x383531312b383035]), ([0x6c6176], [0x444338427830]), ([0x676573], [0x30]), ([0x65707974], [0x62616c])],
  [([0x6469], [0x3232]), ([0x656d616e], [0x2233365f656761705f30355f6b6369745f706f22]), ([0x657a697372646461], [0x6574756c6f736261]), ([0x65706f6373], [0x31]), ([0x666564], [0x3331372b35313131]), ([0x6c6176], [0x354138427830]), ([0x676573], [0x30]), ([0x65707974], [0x62616c])],
  [([0x6469], [0x3332]), ([0x656d616e], [0x2233365f656761705f38345f6b6369745f706f22]), ([0x657a697372646461], [0x6574756c6f736261]), ([0x65706f6373], [0x31]), ([0x666564], [0x352b333838]), ([0x6c6176], [0x433738427830]), ([0x676573], [0x30]), ([0x65707974], [0x62616c])],
  [([0x6469], [0x3432]), ([0x656d616e], [0x2233365f656761705f36345f6b6369745f706f22]), ([0x657a697372646461], [0x6574756c6f736261]), ([0x65706f6373], [0x31]), ([0x666564], [0x343230312b36303131]), ([0x6c6176], [0x373538427830]), ([0x676573], [0x30]), ([0x65707974], [0x62616c])],
  [([0x6469], [0x3532]), ([0x656d616e], [0x2233365f656761705f34345f6b6369745f706f22]), ([0x657a697372646461], [0x6574756c6f736261]), ([0x65706f6373], [0x31]), ([0x666564], [0x333330312b363735]), ([0x6c6176], [0x313338427830]), ([0x676573], [0x30]), ([0x65707974], [0x62616c])],
  [([0x6469], [0x3632]), ([0x656d616e], [0x2233365f656761705f32345f6b6369745f706f22]), ([0x657a697372646461], [0x6574756c6f736261]), ([0x65706f6373], [0x31]), ([0x666564], [0x393732312b3639]), ([0x6c6176], [0x453038427830]), ([0x676573], [0x30]), ([0x65707974], [0x62616c])],
  [([0x6469], [0x3732]), ([0x656d616e], [0x2233365f656761705f30345f6b6369745f706f22]), ([0x657a697372646461], [0x6574756c6f736261]), ([0x65706f6373], [0x31]), ([0x666564], [0x3230332b31303131]), ([0x6c6176], [0x424537427830]), ([0x676573], [0x30]), ([0x65707974], [0x62616c])],
  [([0x6469], [0x3832]), ([0x656d616e], [0x2233365f656761705f38335f6b6369745f706f22]), ([0x657a697372646461], [0x6574756c6f736261]), ([0x65706f6373], [0x31]), ([0x666564], [0x3839312b343937]), ([0x6c6176], [0x424337427830]), ([0x676573], [0x30]), ([0x65707974], [0x62616c])],
  [([0x6469], [0x3932]), ([0x656d616e], [0x22444022]), ([0x657a697372646461], [0x6574756c6f736261]), ([0x746e65726170], [0x3033]), ([0x666564], [0x303830312b393131]), ([0x666572], [0x3931312b393131]), ([0x6c6176], [0x384337427830]), ([0x676573], [0x30]), ([0x65707974], [0x62616c])],
  [([0x6469], [0x3033]), ([0x656d616e], [0x2233365f656761705f36335f6b6369745f706f22]), ([0x657a697372646461], [0x6574756c6f736261]), ([0x65706f6373], [0x31]), ([0x666564], [0x363731312b393131]), ([0x6c6176], [0x373937427830]), ([0x676573], [0x30]), ([0x65707974], [0x62616c])],
  [([0x6469], [0x3133]), ([0x656d616e], [0x2233365f656761705f34335f6b6369745f706f22]), ([0x657a697372646461], [0x6574756c6f736261]), ([0x65706f6373], [0x31]), ([0x666564], [0x323532312b32373031]), ([0x6c6176], [0x313737427830]), ([0x676573], [0x30]), ([0x65707974], [0x62616c])]]

/-- player/iivision.dbg, sym lines 32-63 -/
def symLines1 : List (List (List Nat × List Nat)) := [
  [([0x6469], [0x3233]), ([0x656d616e], [0x2233365f656761705f32335f6b6369745f706f22]), ([0x657a697372646461], [0x6574756c6f736261]), ([0x65706f6373], [0x31]), ([0x666564], [0x3032352b35363031]), ([0x6c6176], [0x353537427830]), ([0x676573], [0x30]), ([0x65707974], [0x62616c])],
  [([0x6469], [0x3333]), ([0x656d616e], [0x2233365f656761705f30335f6b6369745f706f22]), ([0x657a697372646461], [0x6574756c6f736261]), ([0x65706f6373], [0x31]), ([0x666564], [0x383332312b35323031]), ([0x6c6176], [0x383337427830]), ([0x676573], [0x30]), ([0x65707974], [0x62616c])],
  [([0x6469], [0x3433]), ([0x656d616e], [0x2233365f656761705f38325f6b6369745f706f22]), ([0x657a697372646461], [0x6574756c6f736261]), ([0x65706f6373], [0x31]), ([0x666564], [0x31392b333632]), ([0x6c6176], [0x463137427830]), ([0x676573], [0x30]), ([0x65707974], [0x62616c])],
  [([0x6469], [0x3533]), ([0x656d616e], [0x2233365f656761705f36325f6b6369745f706f22]), ([0x657a697372646461], [0x6574756c6f736261]), ([0x65706f6373], [0x31]), ([0x666564], [0x353132312b373535]), ([0x6c6176], [0x353037427830]), ([0x676573], [0x30]), ([0x65707974], [0x62616c])],
  [([0x6469], [0x3633]), ([0x656d616e], [0x22444022]), ([0x657a697372646461], [0x6574756c6f736261]), ([0x746e65726170], [0x3733]), ([0x666564], [0x3435322b3833312b31383131]), ([0x666572], [0x313831312b31383131]), ([0x6c6176], [0x323037427830]), ([0x676573], [0x30]), ([0x65707974], [0x62616c])],
  [([0x6469], [0x3733]), ([0x656d616e], [0x2232365f656761705f36365f6b6369745f706f22]), ([0x657a697372646461], [0x6574756c6f736261]), ([0x65706f6373], [0x31]), ([0x666564], [0x3739362b3833312b31383131]), ([0x6c6176], [0x314436427830]), ([0x676573], [0x30]), ([0x65707974], [0x62616c])],
  [([0x6469], [0x3833]), ([0x656d616e], [0x22444022]), ([0x657a697372646461], [0x6574756c6f736261]), ([0x746e65726170], [0x3933]), ([0x666564], [0x3030372b313030312b31383131]), ([0x666572], [0x313831312b31383131]), ([0x6c6176], [0x454336427830]), ([0x676573], [0x30]), ([0x65707974], [0x62616c])],
  [([0x6469], [0x3933]), ([0x656d616e], [0x2232365f656761705f34365f6b6369745f706f22]), ([0x657a697372646461], [0x6574756c6f736261]), ([0x65706f6373], [0x31]), ([0x666564], [0x3937392b313030312b31383131]), ([0x6c6176], [0x443936427830]), ([0x676573], [0x30]), ([0x65707974], [0x62616c])],
  [([0x6469], [0x3034]), ([0x656d616e], [0x22444022]), ([0x657a697372646461], [0x6574756c6f736261]), ([0x746e65726170], [0x3134]), ([0x666564], [0x3033382b3436362b31383131]), ([0x666572], [0x313831312b31383131]), ([0x6c6176], [0x413936427830]), ([0x676573], [0x30]), ([0x65707974], [0x62616c])],
  [([0x6469], [0x3134]), ([0x656d616e], [0x2232365f656761705f32365f6b6369745f706f22]), ([0x657a697372646461], [0x6574756c6f736261]), ([0x65706f6373], [0x31]), ([0x666564], [0x3236322b3436362b31383131]), ([0x6c6176], [0x393636427830]), ([0x676573], [0x30]), ([0x65707974], [0x62616c])],
  [([0x6469], [0x3234]), ([0x656d616e], [0x22444022]), ([0x657a697372646461], [0x6574756c6f736261]), ([0x746e65726170], [0x3334]), ([0x666564], [0x3332382b3937372b31383131]), ([0x666572], [0x313831312b31383131]), ([0x6c6176], [0x363636427830]), ([0x676573], [0x30]), ([0x65707974], [0x62616c])],
  [([0x6469], [0x3334]), ([0x656d616e], [0x2232365f656761705f30365f6b6369745f706f22]), ([0x657a697372646461], [0x6574756c6f736261]), ([0x65706f6373], [0x31]), ([0x666564], [0x3532372b3937372b31383131]), ([0x6c6176], [0x353336427830]), ([0x676573], [0x30]), ([0x65707974], [0x62616c])],
  [([0x6469], [0x3434]), ([0x656d616e], [0x22444022]), ([0x657a697372646461], [0x6574756c6f736261]), ([0x746e65726170], [0x3534]), ([0x666564], [0x383831312b3031352b31383131]), ([0x666572], [0x313831312b31383131]), ([0x6c6176], [0x323336427830]), ([0x676573], [0x30]), ([0x65707974], [0x62616c])],
  [([0x6469], [0x3534]), ([0x656d616e], [0x2232365f656761705f38355f6b6369745f706f22]), ([0x657a697372646461], [0x6574756c6f736261]), ([0x65706f6373], [0x31]), ([0x666564], [0x3638392b3031352b31383131]), ([0x6c6176], [0x313036427830]), ([0x676573], [0x30]), ([0x65707974], [0x62616c])],
  [([0x6469], [0x3634]), ([0x656d616e], [0x22444022]), ([0x657a697372646461], [0x6574756c6f736261]), ([0x746e65726170], [0x3734]), ([0x666564], [0x3130382b3430372b31383131]), ([0x666572], [0x313831312b31383131]), ([0x6c6176], [0x454635427830]), ([0x676573], [0x30]), ([0x65707974], [0x62616c])],
  [([0x6469], [0x3734]), ([0x656d616e], [0x2232365f656761705f36355f6b6369745f706f22]), ([0x657a697372646461], [0x6574756c6f736261]), ([0x65706f6373], [0x31]), ([0x666564], [0x363832312b3430372b31383131]), ([0x6c6176], [0x444335427830]), ([0x676573], [0x30]), ([0x65707974], [0x62616c])],
  [([0x6469], [0x3834]), ([0x656d616e], [0x22444022]), ([0x657a697372646461], [0x6574756c6f736261]), ([0x746e65726170], [0x3934]), ([0x666564], [0x323230312b3132362b31383131]), ([0x666572], [0x313831312b31383131]), ([0x6c6176], [0x414335427830]), ([0x676573], [0x30]), ([0x65707974], [0x62616c])],
  [([0x6469], [0x3934]), ([0x656d616e], [0x2232365f656761705f34355f6b6369745f706f22]), ([0x657a697372646461], [0x6574756c6f736261]), ([0x65706f6373], [0x31]), ([0x666564], [0x313032312b3132362b31383131]), ([0x6c6176], [0x393935427830]), ([0x676573], [0x30]), ([0x65707974], [0x62616c])],
  [([0x6469], [0x3035]), ([0x656d616e], [0x2232365f656761705f32355f6b6369745f706f22]), ([0x657a697372646461], [0x6574756c6f736261]), ([0x65706f6373], [0x31]), ([0x666564], [0x3335312b3438382b31383131]), ([0x6c6176], [0x453635427830]), ([0x676573], [0x30]), ([0x65707974], [0x62616c])],
  [([0x6469], [0x3135]), ([0x656d616e], [0x2232365f656761705f30355f6b6369745f706f22]), ([0x657a697372646461], [0x6574756c6f736261]), ([0x65706f6373], [0x31]), ([0x666564], [0x3236392b3431312b31383131]), ([0x6c6176], [0x363435427830]), ([0x676573], [0x30]), ([0x65707974], [0x62616c])],
  [([0x6469], [0x3235]), ([0x656d616e], [0x2232365f656761705f38345f6b6369745f706f22]), ([0x657a697372646461], [0x6574756c6f736261]), ([0x65706f6373], [0x31]), ([0x666564], [0x3933342b363230312b31383131]), ([0x6c6176], [0x443135427830]), ([0x676573], [0x30]), ([0x65707974], [0x62616c])],
  [([0x6469], [0x3335]), ([0x656d616e], [0x2232365f656761705f36345f6b6369745f706f22]), ([0x657a697372646461], [0x6574756c6f736261]), ([0x65706f6373], [0x31]), ([0x666564], [0x343430312b3734362b31383131]), ([0x6c6176], [0x384634427830]), ([0x676573], [0x30]), ([0x65707974], [0x62616c])],
  [([0x6469], [0x3435]), ([0x656d616e], [0x2232365f656761705f34345f6b6369745f706f22]), ([0x657a697372646461], [0x6574756c6f736261]), ([0x65706f6373], [0x31]), ([0x666564], [0x3634352b3836322b31383131]), ([0x6c6176], [0x324434427830]), ([0x676573], [0x30]), ([0x65707974], [0x62616c])],
  [([0x6469], [0x3535]), ([0x656d616e], [0x2232365f656761705f32345f6b6369745f706f22]), ([0x657a697372646461], [0x6574756c6f736261]), ([0x65706f6373], [0x31]), ([0x666564], [0x37362b32362b31383131]), ([0x6c6176], [0x464134427830]), ([0x676573], [0x30]), ([0x65707974], [0x62616c])],
  [([0x6469], [0x3635]), ([0x656d616e], [0x2232365f656761705f30345f6b6369745f706f22]), ([0x657a697372646461], [0x6574756c6f736261]), ([0x65706f6373], [0x31]), ([0x666564], [0x323232312b343131312b31383131]), ([0x6c6176], [0x433834427830]), ([0x676573], [0x30]), ([0x65707974], [0x62616c])],
  [([0x6469], [0x3735]), ([0x656d616e], [0x2232365f656761705f38335f6b6369745f706f22]), ([0x657a697372646461], [0x6574756c6f736261]), ([0x65706f6373], [0x31]), ([0x666564], [0x353633312b3930362b31383131]), ([0x6c6176], [0x433634427830]), ([0x676573], [0x30]), ([0x65707974], [0x62616c])],
  [([0x6469], [0x3835]), ([0x656d616e], [0x22444022]), ([0x657a697372646461], [0x6574756c6f736261]), ([0x746e65726170], [0x3935]), ([0x666564], [0x333932312b363332312b31383131]), ([0x666572], [0x313831312b31383131]), ([0x6c6176], [0x393634427830]), ([0x676573], [0x30]), ([0x65707974], [0x62616c])],
  [([0x6469], [0x3935]), ([0x656d616e], [0x2232365f656761705f36335f6b6369745f706f22]), ([0x657a697372646461], [0x6574756c6f736261]), ([0x65706f6373], [0x31]), ([0x666564], [0x3036382b363332312b31383131]), ([0x6c6176], [0x383334427830]), ([0x676573], [0x30]), ([0x65707974], [0x62616c])],
  [([0x6469], [0x3036]), ([0x656d616e], [0x2232365f656761705f34335f6b6369745f706f22]), ([0x657a697372646461], [0x6574756c6f736261]), ([0x65706f6373], [0x31]), ([0x666564], [0x343030312b363330312b31383131]), ([0x6c6176], [0x323134427830]), ([0x676573], [0x30]), ([0x65707974], [0x62616c])],
  [([0x6469], [0x3136]), ([0x656d616e], [0x2232365f656761705f32335f6b6369745f706f22]), ([0x657a697372646461], [0x6574756c6f736261]), ([0x65706f6373], [0x31]), ([0x666564], [0x3234362b393230312b31383131]), ([0x6c6176], [0x364633427830]), ([0x676573], [0x30]), ([0x65707974], [0x62616c])],
  [([0x6469], [0x3236]), ([0x656d616e], [0x2232365f656761705f30335f6b6369745f706f22]), ([0x657a697372646461], [0x6574756c6f736261]), ([0x65706f6373], [0x31]), ([0x666564], [0x373330312b373130312b31383131]), ([0x6c6176], [0x394433427830]), ([0x676573], [0x30]), ([0x65707974], [0x62616c])],
  [([0x6469], [0x3336]), ([0x656d616e], [0x2232365f656761705f38325f6b6369745f706f22]), ([0x657a697372646461], [0x6574756c6f736261]), ([0x65706f6373], [0x31]), ([0x666564], [0x3231322b3637312b31383131]), ([0x6c6176], [0x304333427830]), ([0x676573], [0x30]), ([0x65707974], [0x62616c])]]

/-- player/iivision.dbg, sym lines 64-95 -/
def symLines2 : List (List (List Nat × List Nat)) := [
  [([0x6469], [0x3436]), ([0x656d616e], [0x2232365f656761705f36325f6b6369745f706f22]), ([0x657a697372646461], [0x6574756c6f736261]), ([0x65706f6373], [0x31]), ([0x666564], [0x3038352b3831322b31383131]), ([0x6c6176], [0x364133427830]), ([0x676573], [0x30]), ([0x65707974], [0x62616c])],
  [([0x6469], [0x3536]), ([0x656d616e], [0x2232365f656761705f34325f6b6369745f706f22]), ([0x657a697372646461], [0x6574756c6f736261]), ([0x65706f6373], [0x31]), ([0x666564], [0x3837362b333232312b31383131]), ([0x6c6176], [0x463833427830]), ([0x676573], [0x30]), ([0x65707974], [0x62616c])],
  [([0x6469], [0x3636]), ([0x656d616e], [0x2232365f656761705f32325f6b6369745f706f22]), ([0x657a697372646461], [0x6574756c6f736261]), ([0x65706f6373], [0x31]), ([0x666564], [0x323931312b373033312b31383131]), ([0x6c6176], [0x383733427830]), ([0x676573], [0x30]), ([0x65707974], [0x62616c])],
  [([0x6469], [0x3736]), ([0x656d616e], [0x2232365f656761705f30325f6b6369745f706f22]), ([0x657a697372646461], [0x6574756c6f736261]), ([0x65706f6373], [0x31]), ([0x666564], [0x32332b373732312b31383131]), ([0x6c6176], [0x343633427830]), ([0x676573], [0x30]), ([0x65707974], [0x62616c])],
  [([0x6469], [0x3836]), ([0x656d616e], [0x22444022]), ([0x657a697372646461], [0x6574756c6f736261]), ([0x746e65726170], [0x3936]), ([0x666564], [0x3430352b38392b31383131]), ([0x666572], [0x313831312b31383131]), ([0x6c6176], [0x313633427830]), ([0x676573], [0x30]), ([0x65707974], [0x62616c])],
  [([0x6469], [0x3936]), ([0x656d616e], [0x2232365f656761705f38315f6b6369745f706f22]), ([0x657a697372646461], [0x6574756c6f736261]), ([0x65706f6373], [0x31]), ([0x666564], [0x323032312b38392b31383131]), ([0x6c6176], [0x303333427830]), ([0x676573], [0x30]), ([0x65707974], [0x62616c])],
  [([0x6469], [0x3037]), ([0x656d616e], [0x2232365f656761705f36315f6b6369745f706f22]), ([0x657a697372646461], [0x6574756c6f736261]), ([0x65706f6373], [0x31]), ([0x666564], [0x3032382b3332392b31383131]), ([0x6c6176], [0x393133427830]), ([0x676573], [0x30]), ([0x65707974], [0x62616c])],
  [([0x6469], [0x3137]), ([0x656d616e], [0x2232365f656761705f34315f6b6369745f706f22]), ([0x657a697372646461], [0x6574756c6f736261]), ([0x65706f6373], [0x31]), ([0x666564], [0x33312b3430332b31383131]), ([0x6c6176], [0x393033427830]), ([0x676573], [0x30]), ([0x65707974], [0x62616c])],
  [([0x6469], [0x3237]), ([0x656d616e], [0x2232365f656761705f32315f6b6369745f706f22]), ([0x657a697372646461], [0x6574756c6f736261]), ([0x65706f6373], [0x31]), ([0x666564], [0x3736372b383431312b31383131]), ([0x6c6176], [0x384632427830]), ([0x676573], [0x30]), ([0x65707974], [0x62616c])],
  [([0x6469], [0x3337]), ([0x656d616e], [0x2232365f656761705f30315f6b6369745f706f22]), ([0x657a697372646461], [0x6574756c6f736261]), ([0x65706f6373], [0x31]), ([0x666564], [0x3334392b3334372b31383131]), ([0x6c6176], [0x424532427830]), ([0x676573], [0x30]), ([0x65707974], [0x62616c])],
  [([0x6469], [0x3437]), ([0x656d616e], [0x2232365f656761705f385f6b6369745f706f22]), ([0x657a697372646461], [0x6574756c6f736261]), ([0x65706f6373], [0x31]), ([0x666564], [0x3132382b3037332b31383131]), ([0x6c6176], [0x444432427830]), ([0x676573], [0x30]), ([0x65707974], [0x62616c])],
  [([0x6469], [0x3537]), ([0x656d616e], [0x22385f6c6961745f32365f656761705f6b6369745f706f5f22]), ([0x657a697372646461], [0x6574756c6f736261]), ([0x65706f6373], [0x31]), ([0x666564], [0x3432312b3033362b3737352b31383131]), ([0x6c6176], [0x374432427830]), ([0x676573], [0x30]), ([0x65707974], [0x62616c])],
  [([0x6469], [0x3637]), ([0x656d616e], [0x2232315f6c6961745f32365f656761705f6b6369745f706f5f22]), ([0x657a697372646461], [0x6574756c6f736261]), ([0x65706f6373], [0x31]), ([0x666564], [0x3432312b383430312b3737352b31383131]), ([0x666572], [0x31383131]), ([0x6c6176], [0x344432427830]), ([0x676573], [0x30]), ([0x65707974], [0x62616c])],
  [([0x6469], [0x3737]), ([0x656d616e], [0x22706d6a5f32365f656761705f365f6b6369745f706f5f22]), ([0x657a697372646461], [0x6574756c6f736261]), ([0x65706f6373], [0x31]), ([0x666564], [0x3735372b3737352b31383131]), ([0x666572], [0x313831312b313831312b31383131]), ([0x6c6176], [0x414432427830]), ([0x676573], [0x30]), ([0x65707974], [0x62616c])],
  [([0x6469], [0x3837]), ([0x656d616e], [0x2236315f6c6961745f32365f656761705f6b6369745f706f5f22]), ([0x657a697372646461], [0x6574756c6f736261]), ([0x65706f6373], [0x31]), ([0x666564], [0x3432312b3837312b3737352b31383131]), ([0x666572], [0x31383131]), ([0x6c6176], [0x314432427830]), ([0x676573], [0x30]), ([0x65707974], [0x62616c])],
  [([0x6469], [0x3937]), ([0x656d616e], [0x2230325f6c6961745f32365f656761705f6b6369745f706f5f22]), ([0x657a697372646461], [0x6574756c6f736261]), ([0x65706f6373], [0x31]), ([0x666564], [0x3432312b3238362b3737352b31383131]), ([0x666572], [0x313831312b31383131]), ([0x6c6176], [0x454332427830]), ([0x676573], [0x30]), ([0x65707974], [0x62616c])],
  [([0x6469], [0x3038]), ([0x656d616e], [0x2235325f6c6961745f32365f656761705f6b6369745f706f5f22]), ([0x657a697372646461], [0x6574756c6f736261]), ([0x65706f6373], [0x31]), ([0x666564], [0x3432312b353431312b3737352b31383131]), ([0x6c6176], [0x424332427830]), ([0x676573], [0x30]), ([0x65707974], [0x62616c])],
  [([0x6469], [0x3138]), ([0x656d616e], [0x2239325f6c6961745f32365f656761705f6b6369745f706f5f22]), ([0x657a697372646461], [0x6574756c6f736261]), ([0x65706f6373], [0x31]), ([0x666564], [0x3432312b343632312b3737352b31383131]), ([0x6c6176], [0x384332427830]), ([0x676573], [0x30]), ([0x65707974], [0x62616c])],
  [([0x6469], [0x3238]), ([0x656d616e], [0x2234335f6c6961745f32365f656761705f6b6369745f706f5f22]), ([0x657a697372646461], [0x6574756c6f736261]), ([0x65706f6373], [0x31]), ([0x666564], [0x3432312b3538342b3737352b31383131]), ([0x666572], [0x31383131]), ([0x6c6176], [0x354332427830]), ([0x676573], [0x30]), ([0x65707974], [0x62616c])],
  [([0x6469], [0x3338]), ([0x656d616e], [0x2238335f6c6961745f32365f656761705f6b6369745f706f5f22]), ([0x657a697372646461], [0x6574756c6f736261]), ([0x65706f6373], [0x31]), ([0x666564], [0x3432312b3435352b3737352b31383131]), ([0x666572], [0x31383131]), ([0x6c6176], [0x324332427830]), ([0x676573], [0x30]), ([0x65707974], [0x62616c])],
  [([0x6469], [0x3438]), ([0x656d616e], [0x2233345f6c6961745f32365f656761705f6b6369745f706f5f22]), ([0x657a697372646461], [0x6574756c6f736261]), ([0x65706f6373], [0x31]), ([0x666564], [0x3432312b383433312b3737352b31383131]), ([0x666572], [0x31383131]), ([0x6c6176], [0x464232427830]), ([0x676573], [0x30]), ([0x65707974], [0x62616c])],
  [([0x6469], [0x3538]), ([0x656d616e], [0x2237345f6c6961745f32365f656761705f6b6369745f706f5f22]), ([0x657a697372646461], [0x6574756c6f736261]), ([0x65706f6373], [0x31]), ([0x666564], [0x3432312b3637372b3737352b31383131]), ([0x6c6176], [0x434232427830]), ([0x676573], [0x30]), ([0x65707974], [0x62616c])],
  [([0x6469], [0x3638]), ([0x656d616e], [0x2232355f6c6961745f32365f656761705f6b6369745f706f5f22]), ([0x657a697372646461], [0x6574756c6f736261]), ([0x65706f6373], [0x31]), ([0x666564], [0x3432312b3137362b3737352b31383131]), ([0x666572], [0x31383131]), ([0x6c6176], [0x394232427830]), ([0x676573], [0x30]), ([0x65707974], [0x62616c])],
  [([0x6469], [0x3738]), ([0x656d616e], [0x2236355f6c6961745f32365f656761705f6b6369745f706f5f22]), ([0x657a697372646461], [0x6574756c6f736261]), ([0x65706f6373], [0x31]), ([0x666564], [0x3432312b3839342b3737352b31383131]), ([0x666572], [0x31383131]), ([0x6c6176], [0x364232427830]), ([0x676573], [0x30]), ([0x65707974], [0x62616c])],
  [([0x6469], [0x3838]), ([0x656d616e], [0x2230365f6c6961745f32365f656761705f6b6369745f706f5f22]), ([0x657a697372646461], [0x6574756c6f736261]), ([0x65706f6373], [0x31]), ([0x666564], [0x3432312b353632312b3737352b31383131]), ([0x6c6176], [0x334232427830]), ([0x676573], [0x30]), ([0x65707974], [0x62616c])],
  [([0x6469], [0x3938]), ([0x656d616e], [0x2232365f656761705f365f6b6369745f706f22]), ([0x657a697372646461], [0x6574756c6f736261]), ([0x65706f6373], [0x31]), ([0x666564], [0x3432382b3737352b31383131]), ([0x6c6176], [0x414132427830]), ([0x676573], [0x30]), ([0x65707974], [0x62616c])],
  [([0x6469], [0x3039]), ([0x656d616e], [0x22375f6c6961745f32365f656761705f6b6369745f706f5f22]), ([0x657a697372646461], [0x6574756c6f736261]), ([0x65706f6373], [0x31]), ([0x666564], [0x3432312b3330392b3337332b31383131]), ([0x6c6176], [0x344132427830]), ([0x676573], [0x30]), ([0x65707974], [0x62616c])],
  [([0x6469], [0x3139]), ([0x656d616e], [0x2231315f6c6961745f32365f656761705f6b6369745f706f5f22]), ([0x657a697372646461], [0x6574756c6f736261]), ([0x65706f6373], [0x31]), ([0x666564], [0x3432312b333732312b3337332b31383131]), ([0x6c6176], [0x314132427830]), ([0x676573], [0x30]), ([0x65707974], [0x62616c])],
  [([0x6469], [0x3239]), ([0x656d616e], [0x22706d6a5f32365f656761705f345f6b6369745f706f5f22]), ([0x657a697372646461], [0x6574756c6f736261]), ([0x65706f6373], [0x31]), ([0x666564], [0x3134322b3337332b31383131]), ([0x666572], [0x313831312b31383131]), ([0x6c6176], [0x374132427830]), ([0x676573], [0x30]), ([0x65707974], [0x62616c])],
  [([0x6469], [0x3339]), ([0x656d616e], [0x2235315f6c6961745f32365f656761705f6b6369745f706f5f22]), ([0x657a697372646461], [0x6574756c6f736261]), ([0x65706f6373], [0x31]), ([0x666564], [0x3432312b3538352b3337332b31383131]), ([0x666572], [0x31383131]), ([0x6c6176], [0x453932427830]), ([0x676573], [0x30]), ([0x65707974], [0x62616c])],
  [([0x6469], [0x3439]), ([0x656d616e], [0x2239315f6c6961745f32365f656761705f6b6369745f706f5f22]), ([0x657a697372646461], [0x6574756c6f736261]), ([0x65706f6373], [0x31]), ([0x666564], [0x3432312b3737322b3337332b31383131]), ([0x666572], [0x31383131]), ([0x6c6176], [0x423932427830]), ([0x676573], [0x30]), ([0x65707974], [0x62616c])],
  [([0x6469], [0x3539]), ([0x656d616e], [0x2234325f6c6961745f32365f656761705f6b6369745f706f5f22]), ([0x657a697372646461], [0x6574756c6f736261]), ([0x65706f6373], [0x31]), ([0x666564], [0x3432312b3831352b3337332b31383131]), ([0x666572], [0x313831312b31383131]), ([0x6c6176], [0x383932427830]), ([0x676573], [0x30]), ([0x65707974], [0x62616c])]]

/-- player/iivision.dbg, sym lines 96-127 -/
def symLines3 : List (List (List Nat × List Nat)) := [
  [([0x6469], [0x3639]), ([0x656d616e], [0x2238325f6c6961745f32365f656761705f6b6369745f706f5f22]), ([0x657a697372646461], [0x6574756c6f736261]), ([0x65706f6373], [0x31]), ([0x666564], [0x3432312b3436312b3337332b31383131]), ([0x666572], [0x31383131]), ([0x6c6176], [0x353932427830]), ([0x676573], [0x30]), ([0x65707974], [0x62616c])],
  [([0x6469], [0x3739]), ([0x656d616e], [0x2233335f6c6961745f32365f656761705f6b6369745f706f5f22]), ([0x657a697372646461], [0x6574756c6f736261]), ([0x65706f6373], [0x31]), ([0x666564], [0x3432312b3435312b3337332b31383131]), ([0x666572], [0x31383131]), ([0x6c6176], [0x323932427830]), ([0x676573], [0x30]), ([0x65707974], [0x62616c])],
  [([0x6469], [0x3839]), ([0x656d616e], [0x2237335f6c6961745f32365f656761705f6b6369745f706f5f22]), ([0x657a697372646461], [0x6574756c6f736261]), ([0x65706f6373], [0x31]), ([0x666564], [0x3432312b373532312b3337332b31383131]), ([0x666572], [0x31383131]), ([0x6c6176], [0x463832427830]), ([0x676573], [0x30]), ([0x65707974], [0x62616c])],
  [([0x6469], [0x3939]), ([0x656d616e], [0x2232345f6c6961745f32365f656761705f6b6369745f706f5f22]), ([0x657a697372646461], [0x6574756c6f736261]), ([0x65706f6373], [0x31]), ([0x666564], [0x3432312b323033312b3337332b31383131]), ([0x666572], [0x313831312b31383131]), ([0x6c6176], [0x433832427830]), ([0x676573], [0x30]), ([0x65707974], [0x62616c])],
  [([0x6469], [0x303031]), ([0x656d616e], [0x2236345f6c6961745f32365f656761705f6b6369745f706f5f22]), ([0x657a697372646461], [0x6574756c6f736261]), ([0x65706f6373], [0x31]), ([0x666564], [0x3432312b3530382b3337332b31383131]), ([0x666572], [0x31383131]), ([0x6c6176], [0x393832427830]), ([0x676573], [0x30]), ([0x65707974], [0x62616c])],
  [([0x6469], [0x313031]), ([0x656d616e], [0x2231355f6c6961745f32365f656761705f6b6369745f706f5f22]), ([0x657a697372646461], [0x6574756c6f736261]), ([0x65706f6373], [0x31]), ([0x666564], [0x3432312b343231312b3337332b31383131]), ([0x666572], [0x31383131]), ([0x6c6176], [0x363832427830]), ([0x676573], [0x30]), ([0x65707974], [0x62616c])],
  [([0x6469], [0x323031]), ([0x656d616e], [0x2235355f6c6961745f32365f656761705f6b6369745f706f5f22]), ([0x657a697372646461], [0x6574756c6f736261]), ([0x65706f6373], [0x31]), ([0x666564], [0x3432312b3332332b3337332b31383131]), ([0x666572], [0x31383131]), ([0x6c6176], [0x333832427830]), ([0x676573], [0x30]), ([0x65707974], [0x62616c])],
  [([0x6469], [0x333031]), ([0x656d616e], [0x2239355f6c6961745f32365f656761705f6b6369745f706f5f22]), ([0x657a697372646461], [0x6574756c6f736261]), ([0x65706f6373], [0x31]), ([0x666564], [0x3432312b323431312b3337332b31383131]), ([0x6c6176], [0x303832427830]), ([0x676573], [0x30]), ([0x65707974], [0x62616c])],
  [([0x6469], [0x343031]), ([0x656d616e], [0x2232365f656761705f345f6b6369745f706f22]), ([0x657a697372646461], [0x6574756c6f736261]), ([0x65706f6373], [0x31]), ([0x666564], [0x323630312b3337332b31383131]), ([0x6c6176], [0x363732427830]), ([0x676573], [0x30]), ([0x65707974], [0x62616c])],
  [([0x6469], [0x353031]), ([0x656d616e], [0x22444022]), ([0x657a697372646461], [0x6574756c6f736261]), ([0x746e65726170], [0x363031]), ([0x666564], [0x3435322b3833312b31333231]), ([0x666572], [0x313332312b31333231]), ([0x6c6176], [0x333732427830]), ([0x676573], [0x30]), ([0x65707974], [0x62616c])],
  [([0x6469], [0x363031]), ([0x656d616e], [0x2231365f656761705f36365f6b6369745f706f22]), ([0x657a697372646461], [0x6574756c6f736261]), ([0x65706f6373], [0x31]), ([0x666564], [0x3739362b3833312b31333231]), ([0x6c6176], [0x323432427830]), ([0x676573], [0x30]), ([0x65707974], [0x62616c])],
  [([0x6469], [0x373031]), ([0x656d616e], [0x22444022]), ([0x657a697372646461], [0x6574756c6f736261]), ([0x746e65726170], [0x383031]), ([0x666564], [0x3030372b313030312b31333231]), ([0x666572], [0x313332312b31333231]), ([0x6c6176], [0x463332427830]), ([0x676573], [0x30]), ([0x65707974], [0x62616c])],
  [([0x6469], [0x383031]), ([0x656d616e], [0x2231365f656761705f34365f6b6369745f706f22]), ([0x657a697372646461], [0x6574756c6f736261]), ([0x65706f6373], [0x31]), ([0x666564], [0x3937392b313030312b31333231]), ([0x6c6176], [0x453032427830]), ([0x676573], [0x30]), ([0x65707974], [0x62616c])],
  [([0x6469], [0x393031]), ([0x656d616e], [0x22444022]), ([0x657a697372646461], [0x6574756c6f736261]), ([0x746e65726170], [0x303131]), ([0x666564], [0x3033382b3436362b31333231]), ([0x666572], [0x313332312b31333231]), ([0x6c6176], [0x423032427830]), ([0x676573], [0x30]), ([0x65707974], [0x62616c])],
  [([0x6469], [0x303131]), ([0x656d616e], [0x2231365f656761705f32365f6b6369745f706f22]), ([0x657a697372646461], [0x6574756c6f736261]), ([0x65706f6373], [0x31]), ([0x666564], [0x3236322b3436362b31333231]), ([0x6c6176], [0x414431427830]), ([0x676573], [0x30]), ([0x65707974], [0x62616c])],
  [([0x6469], [0x313131]), ([0x656d616e], [0x22444022]), ([0x657a697372646461], [0x6574756c6f736261]), ([0x746e65726170], [0x323131]), ([0x666564], [0x3332382b3937372b31333231]), ([0x666572], [0x313332312b31333231]), ([0x6c6176], [0x374431427830]), ([0x676573], [0x30]), ([0x65707974], [0x62616c])],
  [([0x6469], [0x323131]), ([0x656d616e], [0x2231365f656761705f30365f6b6369745f706f22]), ([0x657a697372646461], [0x6574756c6f736261]), ([0x65706f6373], [0x31]), ([0x666564], [0x3532372b3937372b31333231]), ([0x6c6176], [0x364131427830]), ([0x676573], [0x30]), ([0x65707974], [0x62616c])],
  [([0x6469], [0x333131]), ([0x656d616e], [0x22444022]), ([0x657a697372646461], [0x6574756c6f736261]), ([0x746e65726170], [0x343131]), ([0x666564], [0x383831312b3031352b31333231]), ([0x666572], [0x313332312b31333231]), ([0x6c6176], [0x334131427830]), ([0x676573], [0x30]), ([0x65707974], [0x62616c])],
  [([0x6469], [0x343131]), ([0x656d616e], [0x2231365f656761705f38355f6b6369745f706f22]), ([0x657a697372646461], [0x6574756c6f736261]), ([0x65706f6373], [0x31]), ([0x666564], [0x3638392b3031352b31333231]), ([0x6c6176], [0x323731427830]), ([0x676573], [0x30]), ([0x65707974], [0x62616c])],
  [([0x6469], [0x353131]), ([0x656d616e], [0x22444022]), ([0x657a697372646461], [0x6574756c6f736261]), ([0x746e65726170], [0x363131]), ([0x666564], [0x3130382b3430372b31333231]), ([0x666572], [0x313332312b31333231]), ([0x6c6176], [0x463631427830]), ([0x676573], [0x30]), ([0x65707974], [0x62616c])],
  [([0x6469], [0x363131]), ([0x656d616e], [0x2231365f656761705f36355f6b6369745f706f22]), ([0x657a697372646461], [0x6574756c6f736261]), ([0x65706f6373], [0x31]), ([0x666564], [0x363832312b3430372b31333231]), ([0x6c6176], [0x453331427830]), ([0x676573], [0x30]), ([0x65707974], [0x62616c])],
  [([0x6469], [0x373131]), ([0x656d616e], [0x22444022]), ([0x657a697372646461], [0x6574756c6f736261]), ([0x746e65726170], [0x383131]), ([0x666564], [0x323230312b3132362b31333231]), ([0x666572], [0x313332312b31333231]), ([0x6c6176], [0x423331427830]), ([0x676573], [0x30]), ([0x65707974], [0x62616c])],
  [([0x6469], [0x383131]), ([0x656d616e], [0x2231365f656761705f34355f6b6369745f706f22]), ([0x657a697372646461], [0x6574756c6f736261]), ([0x65706f6373], [0x31]), ([0x666564], [0x313032312b3132362b31333231]), ([0x6c6176], [0x413031427830]), ([0x676573], [0x30]), ([0x65707974], [0x62616c])],
  [([0x6469], [0x393131]), ([0x656d616e], [0x2231365f656761705f32355f6b6369745f706f22]), ([0x657a697372646461], [0x6574756c6f736261]), ([0x65706f6373], [0x31]), ([0x666564], [0x3335312b3438382b31333231]), ([0x6c6176], [0x464430427830]), ([0x676573], [0x30]), ([0x65707974], [0x62616c])],
  [([0x6469], [0x303231]), ([0x656d616e], [0x2231365f656761705f30355f6b6369745f706f22]), ([0x657a697372646461], [0x6574756c6f736261]), ([0x65706f6373], [0x31]), ([0x666564], [0x3236392b3431312b31333231]), ([0x6c6176], [0x374230427830]), ([0x676573], [0x30]), ([0x65707974], [0x62616c])],
  [([0x6469], [0x313231]), ([0x656d616e], [0x2231365f656761705f38345f6b6369745f706f22]), ([0x657a697372646461], [0x6574756c6f736261]), ([0x65706f6373], [0x31]), ([0x666564], [0x3933342b363230312b31333231]), ([0x6c6176], [0x453830427830]), ([0x676573], [0x30]), ([0x65707974], [0x62616c])],
  [([0x6469], [0x323231]), ([0x656d616e], [0x2231365f656761705f36345f6b6369745f706f22]), ([0x657a697372646461], [0x6574756c6f736261]), ([0x65706f6373], [0x31]), ([0x666564], [0x343430312b3734362b31333231]), ([0x6c6176], [0x393630427830]), ([0x676573], [0x30]), ([0x65707974], [0x62616c])],
  [([0x6469], [0x333231]), ([0x656d616e], [0x2231365f656761705f34345f6b6369745f706f22]), ([0x657a697372646461], [0x6574756c6f736261]), ([0x65706f6373], [0x31]), ([0x666564], [0x3634352b3836322b31333231]), ([0x6c6176], [0x333430427830]), ([0x676573], [0x30]), ([0x65707974], [0x62616c])],
  [([0x6469], [0x343231]), ([0x656d616e], [0x2231365f656761705f32345f6b6369745f706f22]), ([0x657a697372646461], [0x6574756c6f736261]), ([0x65706f6373], [0x31]), ([0x666564], [0x37362b32362b31333231]), ([0x6c6176], [0x303230427830]), ([0x676573], [0x30]), ([0x65707974], [0x62616c])],
  [([0x6469], [0x353231]), ([0x656d616e], [0x2231365f656761705f30345f6b6369745f706f22]), ([0x657a697372646461], [0x6574756c6f736261]), ([0x65706f6373], [0x31]), ([0x666564], [0x323232312b343131312b31333231]), ([0x6c6176], [0x444646417830]), ([0x676573], [0x30]), ([0x65707974], [0x62616c])],
  [([0x6469], [0x363231]), ([0x656d616e], [0x2231365f656761705f38335f6b6369745f706f22]), ([0x657a697372646461], [0x6574756c6f736261]), ([0x65706f6373], [0x31]), ([0x666564], [0x353633312b3930362b31333231]), ([0x6c6176], [0x444446417830]), ([0x676573], [0x30]), ([0x65707974], [0x62616c])],
  [([0x6469], [0x373231]), ([0x656d616e], [0x22444022]), ([0x657a697372646461], [0x6574756c6f736261]), ([0x746e65726170], [0x383231]), ([0x666564], [0x333932312b363332312b31333231]), ([0x666572], [0x313332312b31333231]), ([0x6c6176], [0x414446417830]), ([0x676573], [0x30]), ([0x65707974], [0x62616c])]]

/-- player/iivision.dbg, sym lines 128-159 -/
def symLines4 : List (List (List Nat × List Nat)) := [
  [([0x6469], [0x383231]), ([0x656d616e], [0x2231365f656761705f36335f6b6369745f706f22]), ([0x657a697372646461], [0x6574756c6f736261]), ([0x65706f6373], [0x31]), ([0x666564], [0x3036382b363332312b31333231]), ([0x6c6176], [0x394146417830]), ([0x676573], [0x30]), ([0x65707974], [0x62616c])],
  [([0x6469], [0x393231]), ([0x656d616e], [0x2231365f656761705f34335f6b6369745f706f22]), ([0x657a697372646461], [0x6574756c6f736261]), ([0x65706f6373], [0x31]), ([0x666564], [0x343030312b363330312b31333231]), ([0x6c6176], [0x333846417830]), ([0x676573], [0x30]), ([0x65707974], [0x62616c])],
  [([0x6469], [0x303331]), ([0x656d616e], [0x2231365f656761705f32335f6b6369745f706f22]), ([0x657a697372646461], [0x6574756c6f736261]), ([0x65706f6373], [0x31]), ([0x666564], [0x3234362b393230312b31333231]), ([0x6c6176], [0x373646417830]), ([0x676573], [0x30]), ([0x65707974], [0x62616c])],
  [([0x6469], [0x313331]), ([0x656d616e], [0x2231365f656761705f30335f6b6369745f706f22]), ([0x657a697372646461], [0x6574756c6f736261]), ([0x65706f6373], [0x31]), ([0x666564], [0x373330312b373130312b31333231]), ([0x6c6176], [0x413446417830]), ([0x676573], [0x30]), ([0x65707974], [0x62616c])],
  [([0x6469], [0x323331]), ([0x656d616e], [0x2231365f656761705f38325f6b6369745f706f22]), ([0x657a697372646461], [0x6574756c6f736261]), ([0x65706f6373], [0x31]), ([0x666564], [0x3231322b3637312b31333231]), ([0x6c6176], [0x313346417830]), ([0x676573], [0x30]), ([0x65707974], [0x62616c])],
  [([0x6469], [0x333331]), ([0x656d616e], [0x2231365f656761705f36325f6b6369745f706f22]), ([0x657a697372646461], [0x6574756c6f736261]), ([0x65706f6373], [0x31]), ([0x666564], [0x3038352b3831322b31333231]), ([0x6c6176], [0x373146417830]), ([0x676573], [0x30]), ([0x65707974], [0x62616c])],
  [([0x6469], [0x343331]), ([0x656d616e], [0x2231365f656761705f34325f6b6369745f706f22]), ([0x657a697372646461], [0x6574756c6f736261]), ([0x65706f6373], [0x31]), ([0x666564], [0x3837362b333232312b31333231]), ([0x6c6176], [0x303046417830]), ([0x676573], [0x30]), ([0x65707974], [0x62616c])],
  [([0x6469], [0x353331]), ([0x656d616e], [0x2231365f656761705f32325f6b6369745f706f22]), ([0x657a697372646461], [0x6574756c6f736261]), ([0x65706f6373], [0x31]), ([0x666564], [0x323931312b373033312b31333231]), ([0x6c6176], [0x394545417830]), ([0x676573], [0x30]), ([0x65707974], [0x62616c])],
  [([0x6469], [0x363331]), ([0x656d616e], [0x2231365f656761705f30325f6b6369745f706f22]), ([0x657a697372646461], [0x6574756c6f736261]), ([0x65706f6373], [0x31]), ([0x666564], [0x32332b373732312b31333231]), ([0x6c6176], [0x354445417830]), ([0x676573], [0x30]), ([0x65707974], [0x62616c])],
  [([0x6469], [0x373331]), ([0x656d616e], [0x22444022]), ([0x657a697372646461], [0x6574756c6f736261]), ([0x746e65726170], [0x383331]), ([0x666564], [0x3430352b38392b31333231]), ([0x666572], [0x313332312b31333231]), ([0x6c6176], [0x324445417830]), ([0x676573], [0x30]), ([0x65707974], [0x62616c])],
  [([0x6469], [0x383331]), ([0x656d616e], [0x2231365f656761705f38315f6b6369745f706f22]), ([0x657a697372646461], [0x6574756c6f736261]), ([0x65706f6373], [0x31]), ([0x666564], [0x323032312b38392b31333231]), ([0x6c6176], [0x314145417830]), ([0x676573], [0x30]), ([0x65707974], [0x62616c])],
  [([0x6469], [0x393331]), ([0x656d616e], [0x2231365f656761705f36315f6b6369745f706f22]), ([0x657a697372646461], [0x6574756c6f736261]), ([0x65706f6373], [0x31]), ([0x666564], [0x3032382b3332392b31333231]), ([0x6c6176], [0x413845417830]), ([0x676573], [0x30]), ([0x65707974], [0x62616c])],
  [([0x6469], [0x303431]), ([0x656d616e], [0x2231365f656761705f34315f6b6369745f706f22]), ([0x657a697372646461], [0x6574756c6f736261]), ([0x65706f6373], [0x31]), ([0x666564], [0x33312b3430332b31333231]), ([0x6c6176], [0x413745417830]), ([0x676573], [0x30]), ([0x65707974], [0x62616c])],
  [([0x6469], [0x313431]), ([0x656d616e], [0x2231365f656761705f32315f6b6369745f706f22]), ([0x657a697372646461], [0x6574756c6f736261]), ([0x65706f6373], [0x31]), ([0x666564], [0x3736372b383431312b31333231]), ([0x6c6176], [0x393645417830]), ([0x676573], [0x30]), ([0x65707974], [0x62616c])],
  [([0x6469], [0x323431]), ([0x656d616e], [0x2231365f656761705f30315f6b6369745f706f22]), ([0x657a697372646461], [0x6574756c6f736261]), ([0x65706f6373], [0x31]), ([0x666564], [0x3334392b3334372b31333231]), ([0x6c6176], [0x433545417830]), ([0x676573], [0x30]), ([0x65707974], [0x62616c])],
  [([0x6469], [0x333431]), ([0x656d616e], [0x2231365f656761705f385f6b6369745f706f22]), ([0x657a697372646461], [0x6574756c6f736261]), ([0x65706f6373], [0x31]), ([0x666564], [0x3132382b3037332b31333231]), ([0x6c6176], [0x453445417830]), ([0x676573], [0x30]), ([0x65707974], [0x62616c])],
  [([0x6469], [0x343431]), ([0x656d616e], [0x22385f6c6961745f31365f656761705f6b6369745f706f5f22]), ([0x657a697372646461], [0x6574756c6f736261]), ([0x65706f6373], [0x31]), ([0x666564], [0x3432312b3033362b3737352b31333231]), ([0x6c6176], [0x383445417830]), ([0x676573], [0x30]), ([0x65707974], [0x62616c])],
  [([0x6469], [0x353431]), ([0x656d616e], [0x2232315f6c6961745f31365f656761705f6b6369745f706f5f22]), ([0x657a697372646461], [0x6574756c6f736261]), ([0x65706f6373], [0x31]), ([0x666564], [0x3432312b383430312b3737352b31333231]), ([0x666572], [0x31333231]), ([0x6c6176], [0x353445417830]), ([0x676573], [0x30]), ([0x65707974], [0x62616c])],
  [([0x6469], [0x363431]), ([0x656d616e], [0x22706d6a5f31365f656761705f365f6b6369745f706f5f22]), ([0x657a697372646461], [0x6574756c6f736261]), ([0x65706f6373], [0x31]), ([0x666564], [0x3735372b3737352b31333231]), ([0x666572], [0x313332312b313332312b31333231]), ([0x6c6176], [0x423445417830]), ([0x676573], [0x30]), ([0x65707974], [0x62616c])],
  [([0x6469], [0x373431]), ([0x656d616e], [0x2236315f6c6961745f31365f656761705f6b6369745f706f5f22]), ([0x657a697372646461], [0x6574756c6f736261]), ([0x65706f6373], [0x31]), ([0x666564], [0x3432312b3837312b3737352b31333231]), ([0x666572], [0x31333231]), ([0x6c6176], [0x323445417830]), ([0x676573], [0x30]), ([0x65707974], [0x62616c])],
  [([0x6469], [0x383431]), ([0x656d616e], [0x2230325f6c6961745f31365f656761705f6b6369745f706f5f22]), ([0x657a697372646461], [0x6574756c6f736261]), ([0x65706f6373], [0x31]), ([0x666564], [0x3432312b3238362b3737352b31333231]), ([0x666572], [0x313332312b31333231]), ([0x6c6176], [0x463345417830]), ([0x676573], [0x30]), ([0x65707974], [0x62616c])],
  [([0x6469], [0x393431]), ([0x656d616e], [0x2235325f6c6961745f31365f656761705f6b6369745f706f5f22]), ([0x657a697372646461], [0x6574756c6f736261]), ([0x65706f6373], [0x31]), ([0x666564], [0x3432312b353431312b3737352b31333231]), ([0x6c6176], [0x433345417830]), ([0x676573], [0x30]), ([0x65707974], [0x62616c])],
  [([0x6469], [0x303531]), ([0x656d616e], [0x2239325f6c6961745f31365f656761705f6b6369745f706f5f22]), ([0x657a697372646461], [0x6574756c6f736261]), ([0x65706f6373], [0x31]), ([0x666564], [0x3432312b343632312b3737352b31333231]), ([0x6c6176], [0x393345417830]), ([0x676573], [0x30]), ([0x65707974], [0x62616c])],
  [([0x6469], [0x313531]), ([0x656d616e], [0x2234335f6c6961745f31365f656761705f6b6369745f706f5f22]), ([0x657a697372646461], [0x6574756c6f736261]), ([0x65706f6373], [0x31]), ([0x666564], [0x3432312b3538342b3737352b31333231]), ([0x666572], [0x31333231]), ([0x6c6176], [0x363345417830]), ([0x676573], [0x30]), ([0x65707974], [0x62616c])],
  [([0x6469], [0x323531]), ([0x656d616e], [0x2238335f6c6961745f31365f656761705f6b6369745f706f5f22]), ([0x657a697372646461], [0x6574756c6f736261]), ([0x65706f6373], [0x31]), ([0x666564], [0x3432312b3435352b3737352b31333231]), ([0x666572], [0x31333231]), ([0x6c6176], [0x333345417830]), ([0x676573], [0x30]), ([0x65707974], [0x62616c])],
  [([0x6469], [0x333531]), ([0x656d616e], [0x2233345f6c6961745f31365f656761705f6b6369745f706f5f22]), ([0x657a697372646461], [0x6574756c6f736261]), ([0x65706f6373], [0x31]), ([0x666564], [0x3432312b383433312b3737352b31333231]), ([0x666572], [0x31333231]), ([0x6c6176], [0x303345417830]), ([0x676573], [0x30]), ([0x65707974], [0x62616c])],
  [([0x6469], [0x343531]), ([0x656d616e], [0x2237345f6c6961745f31365f656761705f6b6369745f706f5f22]), ([0x657a697372646461], [0x6574756c6f736261]), ([0x65706f6373], [0x31]), ([0x666564], [0x3432312b3637372b3737352b31333231]), ([0x6c6176], [0x443245417830]), ([0x676573], [0x30]), ([0x65707974], [0x62616c])],
  [([0x6469], [0x353531]), ([0x656d616e], [0x2232355f6c6961745f31365f656761705f6b6369745f706f5f22]), ([0x657a697372646461], [0x6574756c6f736261]), ([0x65706f6373], [0x31]), ([0x666564], [0x3432312b3137362b3737352b31333231]), ([0x666572], [0x31333231]), ([0x6c6176], [0x413245417830]), ([0x676573], [0x30]), ([0x65707974], [0x62616c])],
  [([0x6469], [0x363531]), ([0x656d616e], [0x2236355f6c6961745f31365f656761705f6b6369745f706f5f22]), ([0x657a697372646461], [0x6574756c6f736261]), ([0x65706f6373], [0x31]), ([0x666564], [0x3432312b3839342b3737352b31333231]), ([0x666572], [0x31333231]), ([0x6c6176], [0x373245417830]), ([0x676573], [0x30]), ([0x65707974], [0x62616c])],
  [([0x6469], [0x373531]), ([0x656d616e], [0x2230365f6c6961745f31365f656761705f6b6369745f706f5f22]), ([0x657a697372646461], [0x6574756c6f736261]), ([0x65706f6373], [0x31]), ([0x666564], [0x3432312b353632312b3737352b31333231]), ([0x6c6176], [0x343245417830]), ([0x676573], [0x30]), ([0x65707974], [0x62616c])],
  [([0x6469], [0x383531]), ([0x656d616e], [0x2231365f656761705f365f6b6369745f706f22]), ([0x657a697372646461], [0x6574756c6f736261]), ([0x65706f6373], [0x31]), ([0x666564], [0x3432382b3737352b31333231]), ([0x6c6176], [0x423145417830]), ([0x676573], [0x30]), ([0x65707974], [0x62616c])],
  [([0x6469], [0x393531]), ([0x656d616e], [0x22375f6c6961745f31365f656761705f6b6369745f706f5f22]), ([0x657a697372646461], [0x6574756c6f736261]), ([0x65706f6373], [0x31]), ([0x666564], [0x3432312b3330392b3337332b31333231]), ([0x6c6176], [0x353145417830]), ([0x676573], [0x30]), ([0x65707974], [0x62616c])]]

/-- player/iivision.dbg, sym lines 160-191 -/
def symLines5 : List (List (List Nat × List Nat)) := [
  [([0x6469], [0x303631]), ([0x656d616e], [0x2231315f6c6961745f31365f656761705f6b6369745f706f5f22]), ([0x657a697372646461], [0x6574756c6f736261]), ([0x65706f6373], [0x31]), ([0x666564], [0x3432312b333732312b3337332b31333231]), ([0x6c6176], [0x323145417830]), ([0x676573], [0x30]), ([0x65707974], [0x62616c])],
  [([0x6469], [0x313631]), ([0x656d616e], [0x22706d6a5f31365f656761705f345f6b6369745f706f5f22]), ([0x657a697372646461], [0x6574756c6f736261]), ([0x65706f6373], [0x31]), ([0x666564], [0x3134322b3337332b31333231]), ([0x666572], [0x313332312b31333231]), ([0x6c6176], [0x383145417830]), ([0x676573], [0x30]), ([0x65707974], [0x62616c])],
  [([0x6469], [0x323631]), ([0x656d616e], [0x2235315f6c6961745f31365f656761705f6b6369745f706f5f22]), ([0x657a697372646461], [0x6574756c6f736261]), ([0x65706f6373], [0x31]), ([0x666564], [0x3432312b3538352b3337332b31333231]), ([0x666572], [0x31333231]), ([0x6c6176], [0x463045417830]), ([0x676573], [0x30]), ([0x65707974], [0x62616c])],
  [([0x6469], [0x333631]), ([0x656d616e], [0x2239315f6c6961745f31365f656761705f6b6369745f706f5f22]), ([0x657a697372646461], [0x6574756c6f736261]), ([0x65706f6373], [0x31]), ([0x666564], [0x3432312b3737322b3337332b31333231]), ([0x666572], [0x31333231]), ([0x6c6176], [0x433045417830]), ([0x676573], [0x30]), ([0x65707974], [0x62616c])],
  [([0x6469], [0x343631]), ([0x656d616e], [0x2234325f6c6961745f31365f656761705f6b6369745f706f5f22]), ([0x657a697372646461], [0x6574756c6f736261]), ([0x65706f6373], [0x31]), ([0x666564], [0x3432312b3831352b3337332b31333231]), ([0x666572], [0x313332312b31333231]), ([0x6c6176], [0x393045417830]), ([0x676573], [0x30]), ([0x65707974], [0x62616c])],
  [([0x6469], [0x353631]), ([0x656d616e], [0x2238325f6c6961745f31365f656761705f6b6369745f706f5f22]), ([0x657a697372646461], [0x6574756c6f736261]), ([0x65706f6373], [0x31]), ([0x666564], [0x3432312b3436312b3337332b31333231]), ([0x666572], [0x31333231]), ([0x6c6176], [0x363045417830]), ([0x676573], [0x30]), ([0x65707974], [0x62616c])],
  [([0x6469], [0x363631]), ([0x656d616e], [0x2233335f6c6961745f31365f656761705f6b6369745f706f5f22]), ([0x657a697372646461], [0x6574756c6f736261]), ([0x65706f6373], [0x31]), ([0x666564], [0x3432312b3435312b3337332b31333231]), ([0x666572], [0x31333231]), ([0x6c6176], [0x333045417830]), ([0x676573], [0x30]), ([0x65707974], [0x62616c])],
  [([0x6469], [0x373631]), ([0x656d616e], [0x2237335f6c6961745f31365f656761705f6b6369745f706f5f22]), ([0x657a697372646461], [0x6574756c6f736261]), ([0x65706f6373], [0x31]), ([0x666564], [0x3432312b373532312b3337332b31333231]), ([0x666572], [0x31333231]), ([0x6c6176], [0x303045417830]), ([0x676573], [0x30]), ([0x65707974], [0x62616c])],
  [([0x6469], [0x383631]), ([0x656d616e], [0x2232345f6c6961745f31365f656761705f6b6369745f706f5f22]), ([0x657a697372646461], [0x6574756c6f736261]), ([0x65706f6373], [0x31]), ([0x666564], [0x3432312b323033312b3337332b31333231]), ([0x666572], [0x313332312b31333231]), ([0x6c6176], [0x444644417830]), ([0x676573], [0x30]), ([0x65707974], [0x62616c])],
  [([0x6469], [0x393631]), ([0x656d616e], [0x2236345f6c6961745f31365f656761705f6b6369745f706f5f22]), ([0x657a697372646461], [0x6574756c6f736261]), ([0x65706f6373], [0x31]), ([0x666564], [0x3432312b3530382b3337332b31333231]), ([0x666572], [0x31333231]), ([0x6c6176], [0x414644417830]), ([0x676573], [0x30]), ([0x65707974], [0x62616c])],
  [([0x6469], [0x303731]), ([0x656d616e], [0x2231355f6c6961745f31365f656761705f6b6369745f706f5f22]), ([0x657a697372646461], [0x6574756c6f736261]), ([0x65706f6373], [0x31]), ([0x666564], [0x3432312b343231312b3337332b31333231]), ([0x666572], [0x31333231]), ([0x6c6176], [0x374644417830]), ([0x676573], [0x30]), ([0x65707974], [0x62616c])],
  [([0x6469], [0x313731]), ([0x656d616e], [0x2235355f6c6961745f31365f656761705f6b6369745f706f5f22]), ([0x657a697372646461], [0x6574756c6f736261]), ([0x65706f6373], [0x31]), ([0x666564], [0x3432312b3332332b3337332b31333231]), ([0x666572], [0x31333231]), ([0x6c6176], [0x344644417830]), ([0x676573], [0x30]), ([0x65707974], [0x62616c])],
  [([0x6469], [0x323731]), ([0x656d616e], [0x2239355f6c6961745f31365f656761705f6b6369745f706f5f22]), ([0x657a697372646461], [0x6574756c6f736261]), ([0x65706f6373], [0x31]), ([0x666564], [0x3432312b323431312b3337332b31333231]), ([0x6c6176], [0x314644417830]), ([0x676573], [0x30]), ([0x65707974], [0x62616c])],
  [([0x6469], [0x333731]), ([0x656d616e], [0x2231365f656761705f345f6b6369745f706f22]), ([0x657a697372646461], [0x6574756c6f736261]), ([0x65706f6373], [0x31]), ([0x666564], [0x323630312b3337332b31333231]), ([0x6c6176], [0x374544417830]), ([0x676573], [0x30]), ([0x65707974], [0x62616c])],
  [([0x6469], [0x343731]), ([0x656d616e], [0x22444022]), ([0x657a697372646461], [0x6574756c6f736261]), ([0x746e65726170], [0x353731]), ([0x666564], [0x3435322b3833312b363031]), ([0x666572], [0x3630312b363031]), ([0x6c6176], [0x344544417830]), ([0x676573], [0x30]), ([0x65707974], [0x62616c])],
  [([0x6469], [0x353731]), ([0x656d616e], [0x2230365f656761705f36365f6b6369745f706f22]), ([0x657a697372646461], [0x6574756c6f736261]), ([0x65706f6373], [0x31]), ([0x666564], [0x3739362b3833312b363031]), ([0x6c6176], [0x334244417830]), ([0x676573], [0x30]), ([0x65707974], [0x62616c])],
  [([0x6469], [0x363731]), ([0x656d616e], [0x22444022]), ([0x657a697372646461], [0x6574756c6f736261]), ([0x746e65726170], [0x373731]), ([0x666564], [0x3030372b313030312b363031]), ([0x666572], [0x3630312b363031]), ([0x6c6176], [0x304244417830]), ([0x676573], [0x30]), ([0x65707974], [0x62616c])],
  [([0x6469], [0x373731]), ([0x656d616e], [0x2230365f656761705f34365f6b6369745f706f22]), ([0x657a697372646461], [0x6574756c6f736261]), ([0x65706f6373], [0x31]), ([0x666564], [0x3937392b313030312b363031]), ([0x6c6176], [0x463744417830]), ([0x676573], [0x30]), ([0x65707974], [0x62616c])],
  [([0x6469], [0x383731]), ([0x656d616e], [0x22444022]), ([0x657a697372646461], [0x6574756c6f736261]), ([0x746e65726170], [0x393731]), ([0x666564], [0x3033382b3436362b363031]), ([0x666572], [0x3630312b363031]), ([0x6c6176], [0x433744417830]), ([0x676573], [0x30]), ([0x65707974], [0x62616c])],
  [([0x6469], [0x393731]), ([0x656d616e], [0x2230365f656761705f32365f6b6369745f706f22]), ([0x657a697372646461], [0x6574756c6f736261]), ([0x65706f6373], [0x31]), ([0x666564], [0x3236322b3436362b363031]), ([0x6c6176], [0x423444417830]), ([0x676573], [0x30]), ([0x65707974], [0x62616c])],
  [([0x6469], [0x303831]), ([0x656d616e], [0x22444022]), ([0x657a697372646461], [0x6574756c6f736261]), ([0x746e65726170], [0x313831]), ([0x666564], [0x3332382b3937372b363031]), ([0x666572], [0x3630312b363031]), ([0x6c6176], [0x383444417830]), ([0x676573], [0x30]), ([0x65707974], [0x62616c])],
  [([0x6469], [0x313831]), ([0x656d616e], [0x2230365f656761705f30365f6b6369745f706f22]), ([0x657a697372646461], [0x6574756c6f736261]), ([0x65706f6373], [0x31]), ([0x666564], [0x3532372b3937372b363031]), ([0x6c6176], [0x373144417830]), ([0x676573], [0x30]), ([0x65707974], [0x62616c])],
  [([0x6469], [0x323831]), ([0x656d616e], [0x22444022]), ([0x657a697372646461], [0x6574756c6f736261]), ([0x746e65726170], [0x333831]), ([0x666564], [0x383831312b3031352b363031]), ([0x666572], [0x3630312b363031]), ([0x6c6176], [0x343144417830]), ([0x676573], [0x30]), ([0x65707974], [0x62616c])],
  [([0x6469], [0x333831]), ([0x656d616e], [0x2230365f656761705f38355f6b6369745f706f22]), ([0x657a697372646461], [0x6574756c6f736261]), ([0x65706f6373], [0x31]), ([0x666564], [0x3638392b3031352b363031]), ([0x6c6176], [0x334543417830]), ([0x676573], [0x30]), ([0x65707974], [0x62616c])],
  [([0x6469], [0x343831]), ([0x656d616e], [0x22444022]), ([0x657a697372646461], [0x6574756c6f736261]), ([0x746e65726170], [0x353831]), ([0x666564], [0x3130382b3430372b363031]), ([0x666572], [0x3630312b363031]), ([0x6c6176], [0x304543417830]), ([0x676573], [0x30]), ([0x65707974], [0x62616c])],
  [([0x6469], [0x353831]), ([0x656d616e], [0x2230365f656761705f36355f6b6369745f706f22]), ([0x657a697372646461], [0x6574756c6f736261]), ([0x65706f6373], [0x31]), ([0x666564], [0x363832312b3430372b363031]), ([0x6c6176], [0x464143417830]), ([0x676573], [0x30]), ([0x65707974], [0x62616c])],
  [([0x6469], [0x363831]), ([0x656d616e], [0x22444022]), ([0x657a697372646461], [0x6574756c6f736261]), ([0x746e65726170], [0x373831]), ([0x666564], [0x323230312b3132362b363031]), ([0x666572], [0x3630312b363031]), ([0x6c6176], [0x434143417830]), ([0x676573], [0x30]), ([0x65707974], [0x62616c])],
  [([0x6469], [0x373831]), ([0x656d616e], [0x2230365f656761705f34355f6b6369745f706f22]), ([0x657a697372646461], [0x6574756c6f736261]), ([0x65706f6373], [0x31]), ([0x666564], [0x313032312b3132362b363031]), ([0x6c6176], [0x423743417830]), ([0x676573], [0x30]), ([0x65707974], [0x62616c])],
  [([0x6469], [0x383831]), ([0x656d616e], [0x2230365f656761705f32355f6b6369745f706f22]), ([0x657a697372646461], [0x6574756c6f736261]), ([0x65706f6373], [0x31]), ([0x666564], [0x3335312b3438382b363031]), ([0x6c6176], [0x303543417830]), ([0x676573], [0x30]), ([0x65707974], [0x62616c])],
  [([0x6469], [0x393831]), ([0x656d616e], [0x2230365f656761705f30355f6b6369745f706f22]), ([0x657a697372646461], [0x6574756c6f736261]), ([0x65706f6373], [0x31]), ([0x666564], [0x3236392b3431312b363031]), ([0x6c6176], [0x383243417830]), ([0x676573], [0x30]), ([0x65707974], [0x62616c])],
  [([0x6469], [0x303931]), ([0x656d616e], [0x2230365f656761705f38345f6b6369745f706f22]), ([0x657a697372646461], [0x6574756c6f736261]), ([0x65706f6373], [0x31]), ([0x666564], [0x3933342b363230312b363031]), ([0x6c6176], [0x464642417830]), ([0x676573], [0x30]), ([0x65707974], [0x62616c])],
  [([0x6469], [0x313931]), ([0x656d616e], [0x2230365f656761705f36345f6b6369745f706f22]), ([0x657a697372646461], [0x6574756c6f736261]), ([0x65706f6373], [0x31]), ([0x666564], [0x343430312b3734362b363031]), ([0x6c6176], [0x414442417830]), ([0x676573], [0x30]), ([0x65707974], [0x62616c])]]

/-- player/iivision.dbg, sym lines 192-223 -/
def symLines6 : List (List (List Nat × List Nat)) := [
  [([0x6469], [0x323931]), ([0x656d616e], [0x2230365f656761705f34345f6b6369745f706f22]), ([0x657a697372646461], [0x6574756c6f736261]), ([0x65706f6373], [0x31]), ([0x666564], [0x3634352b3836322b363031]), ([0x6c6176], [0x344242417830]), ([0x676573], [0x30]), ([0x65707974], [0x62616c])],
  [([0x6469], [0x333931]), ([0x656d616e], [0x2230365f656761705f32345f6b6369745f706f22]), ([0x657a697372646461], [0x6574756c6f736261]), ([0x65706f6373], [0x31]), ([0x666564], [0x37362b32362b363031]), ([0x6c6176], [0x313942417830]), ([0x676573], [0x30]), ([0x65707974], [0x62616c])],
  [([0x6469], [0x343931]), ([0x656d616e], [0x2230365f656761705f30345f6b6369745f706f22]), ([0x657a697372646461], [0x6574756c6f736261]), ([0x65706f6373], [0x31]), ([0x666564], [0x323232312b343131312b363031]), ([0x6c6176], [0x453642417830]), ([0x676573], [0x30]), ([0x65707974], [0x62616c])],
  [([0x6469], [0x353931]), ([0x656d616e], [0x2230365f656761705f38335f6b6369745f706f22]), ([0x657a697372646461], [0x6574756c6f736261]), ([0x65706f6373], [0x31]), ([0x666564], [0x353633312b3930362b363031]), ([0x6c6176], [0x453442417830]), ([0x676573], [0x30]), ([0x65707974], [0x62616c])],
  [([0x6469], [0x363931]), ([0x656d616e], [0x22444022]), ([0x657a697372646461], [0x6574756c6f736261]), ([0x746e65726170], [0x373931]), ([0x666564], [0x333932312b363332312b363031]), ([0x666572], [0x3630312b363031]), ([0x6c6176], [0x423442417830]), ([0x676573], [0x30]), ([0x65707974], [0x62616c])],
  [([0x6469], [0x373931]), ([0x656d616e], [0x2230365f656761705f36335f6b6369745f706f22]), ([0x657a697372646461], [0x6574756c6f736261]), ([0x65706f6373], [0x31]), ([0x666564], [0x3036382b363332312b363031]), ([0x6c6176], [0x413142417830]), ([0x676573], [0x30]), ([0x65707974], [0x62616c])],
  [([0x6469], [0x383931]), ([0x656d616e], [0x2230365f656761705f34335f6b6369745f706f22]), ([0x657a697372646461], [0x6574756c6f736261]), ([0x65706f6373], [0x31]), ([0x666564], [0x343030312b363330312b363031]), ([0x6c6176], [0x344641417830]), ([0x676573], [0x30]), ([0x65707974], [0x62616c])],
  [([0x6469], [0x393931]), ([0x656d616e], [0x2230365f656761705f32335f6b6369745f706f22]), ([0x657a697372646461], [0x6574756c6f736261]), ([0x65706f6373], [0x31]), ([0x666564], [0x3234362b393230312b363031]), ([0x6c6176], [0x384441417830]), ([0x676573], [0x30]), ([0x65707974], [0x62616c])],
  [([0x6469], [0x303032]), ([0x656d616e], [0x2230365f656761705f30335f6b6369745f706f22]), ([0x657a697372646461], [0x6574756c6f736261]), ([0x65706f6373], [0x31]), ([0x666564], [0x373330312b373130312b363031]), ([0x6c6176], [0x424241417830]), ([0x676573], [0x30]), ([0x65707974], [0x62616c])],
  [([0x6469], [0x313032]), ([0x656d616e], [0x2230365f656761705f38325f6b6369745f706f22]), ([0x657a697372646461], [0x6574756c6f736261]), ([0x65706f6373], [0x31]), ([0x666564], [0x3231322b3637312b363031]), ([0x6c6176], [0x324141417830]), ([0x676573], [0x30]), ([0x65707974], [0x62616c])],
  [([0x6469], [0x323032]), ([0x656d616e], [0x2230365f656761705f36325f6b6369745f706f22]), ([0x657a697372646461], [0x6574756c6f736261]), ([0x65706f6373], [0x31]), ([0x666564], [0x3038352b3831322b363031]), ([0x6c6176], [0x383841417830]), ([0x676573], [0x30]), ([0x65707974], [0x62616c])],
  [([0x6469], [0x333032]), ([0x656d616e], [0x2230365f656761705f34325f6b6369745f706f22]), ([0x657a697372646461], [0x6574756c6f736261]), ([0x65706f6373], [0x31]), ([0x666564], [0x3837362b333232312b363031]), ([0x6c6176], [0x313741417830]), ([0x676573], [0x30]), ([0x65707974], [0x62616c])],
  [([0x6469], [0x343032]), ([0x656d616e], [0x2230365f656761705f32325f6b6369745f706f22]), ([0x657a697372646461], [0x6574756c6f736261]), ([0x65706f6373], [0x31]), ([0x666564], [0x323931312b373033312b363031]), ([0x6c6176], [0x413541417830]), ([0x676573], [0x30]), ([0x65707974], [0x62616c])],
  [([0x6469], [0x353032]), ([0x656d616e], [0x2230365f656761705f30325f6b6369745f706f22]), ([0x657a697372646461], [0x6574756c6f736261]), ([0x65706f6373], [0x31]), ([0x666564], [0x32332b373732312b363031]), ([0x6c6176], [0x363441417830]), ([0x676573], [0x30]), ([0x65707974], [0x62616c])],
  [([0x6469], [0x363032]), ([0x656d616e], [0x22444022]), ([0x657a697372646461], [0x6574756c6f736261]), ([0x746e65726170], [0x373032]), ([0x666564], [0x3430352b38392b363031]), ([0x666572], [0x3630312b363031]), ([0x6c6176], [0x333441417830]), ([0x676573], [0x30]), ([0x65707974], [0x62616c])],
  [([0x6469], [0x373032]), ([0x656d616e], [0x2230365f656761705f38315f6b6369745f706f22]), ([0x657a697372646461], [0x6574756c6f736261]), ([0x65706f6373], [0x31]), ([0x666564], [0x323032312b38392b363031]), ([0x6c6176], [0x323141417830]), ([0x676573], [0x30]), ([0x65707974], [0x62616c])],
  [([0x6469], [0x383032]), ([0x656d616e], [0x2230365f656761705f36315f6b6369745f706f22]), ([0x657a697372646461], [0x6574756c6f736261]), ([0x65706f6373], [0x31]), ([0x666564], [0x3032382b3332392b363031]), ([0x6c6176], [0x424639417830]), ([0x676573], [0x30]), ([0x65707974], [0x62616c])],
  [([0x6469], [0x393032]), ([0x656d616e], [0x2230365f656761705f34315f6b6369745f706f22]), ([0x657a697372646461], [0x6574756c6f736261]), ([0x65706f6373], [0x31]), ([0x666564], [0x33312b3430332b363031]), ([0x6c6176], [0x424539417830]), ([0x676573], [0x30]), ([0x65707974], [0x62616c])],
  [([0x6469], [0x303132]), ([0x656d616e], [0x2230365f656761705f32315f6b6369745f706f22]), ([0x657a697372646461], [0x6574756c6f736261]), ([0x65706f6373], [0x31]), ([0x666564], [0x3736372b383431312b363031]), ([0x6c6176], [0x414439417830]), ([0x676573], [0x30]), ([0x65707974], [0x62616c])],
  [([0x6469], [0x313132]), ([0x656d616e], [0x2230365f656761705f30315f6b6369745f706f22]), ([0x657a697372646461], [0x6574756c6f736261]), ([0x65706f6373], [0x31]), ([0x666564], [0x3334392b3334372b363031]), ([0x6c6176], [0x444339417830]), ([0x676573], [0x30]), ([0x65707974], [0x62616c])],
  [([0x6469], [0x323132]), ([0x656d616e], [0x2230365f656761705f385f6b6369745f706f22]), ([0x657a697372646461], [0x6574756c6f736261]), ([0x65706f6373], [0x31]), ([0x666564], [0x3132382b3037332b363031]), ([0x6c6176], [0x464239417830]), ([0x676573], [0x30]), ([0x65707974], [0x62616c])],
  [([0x6469], [0x333132]), ([0x656d616e], [0x22385f6c6961745f30365f656761705f6b6369745f706f5f22]), ([0x657a697372646461], [0x6574756c6f736261]), ([0x65706f6373], [0x31]), ([0x666564], [0x3432312b3033362b3737352b363031]), ([0x6c6176], [0x394239417830]), ([0x676573], [0x30]), ([0x65707974], [0x62616c])],
  [([0x6469], [0x343132]), ([0x656d616e], [0x2232315f6c6961745f30365f656761705f6b6369745f706f5f22]), ([0x657a697372646461], [0x6574756c6f736261]), ([0x65706f6373], [0x31]), ([0x666564], [0x3432312b383430312b3737352b363031]), ([0x666572], [0x363031]), ([0x6c6176], [0x364239417830]), ([0x676573], [0x30]), ([0x65707974], [0x62616c])],
  [([0x6469], [0x353132]), ([0x656d616e], [0x22706d6a5f30365f656761705f365f6b6369745f706f5f22]), ([0x657a697372646461], [0x6574756c6f736261]), ([0x65706f6373], [0x31]), ([0x666564], [0x3735372b3737352b363031]), ([0x666572], [0x3630312b3630312b363031]), ([0x6c6176], [0x434239417830]), ([0x676573], [0x30]), ([0x65707974], [0x62616c])],
  [([0x6469], [0x363132]), ([0x656d616e], [0x2236315f6c6961745f30365f656761705f6b6369745f706f5f22]), ([0x657a697372646461], [0x6574756c6f736261]), ([0x65706f6373], [0x31]), ([0x666564], [0x3432312b3837312b3737352b363031]), ([0x666572], [0x363031]), ([0x6c6176], [0x334239417830]), ([0x676573], [0x30]), ([0x65707974], [0x62616c])],
  [([0x6469], [0x373132]), ([0x656d616e], [0x2230325f6c6961745f30365f656761705f6b6369745f706f5f22]), ([0x657a697372646461], [0x6574756c6f736261]), ([0x65706f6373], [0x31]), ([0x666564], [0x3432312b3238362b3737352b363031]), ([0x666572], [0x3630312b363031]), ([0x6c6176], [0x304239417830]), ([0x676573], [0x30]), ([0x65707974], [0x62616c])],
  [([0x6469], [0x383132]), ([0x656d616e], [0x2235325f6c6961745f30365f656761705f6b6369745f706f5f22]), ([0x657a697372646461], [0x6574756c6f736261]), ([0x65706f6373], [0x31]), ([0x666564], [0x3432312b353431312b3737352b363031]), ([0x6c6176], [0x444139417830]), ([0x676573], [0x30]), ([0x65707974], [0x62616c])],
  [([0x6469], [0x393132]), ([0x656d616e], [0x2239325f6c6961745f30365f656761705f6b6369745f706f5f22]), ([0x657a697372646461], [0x6574756c6f736261]), ([0x65706f6373], [0x31]), ([0x666564], [0x3432312b343632312b3737352b363031]), ([0x6c6176], [0x414139417830]), ([0x676573], [0x30]), ([0x65707974], [0x62616c])],
  [([0x6469], [0x303232]), ([0x656d616e], [0x2234335f6c6961745f30365f656761705f6b6369745f706f5f22]), ([0x657a697372646461], [0x6574756c6f736261]), ([0x65706f6373], [0x31]), ([0x666564], [0x3432312b3538342b3737352b363031]), ([0x666572], [0x363031]), ([0x6c6176], [0x374139417830]), ([0x676573], [0x30]), ([0x65707974], [0x62616c])],
  [([0x6469], [0x313232]), ([0x656d616e], [0x2238335f6c6961745f30365f656761705f6b6369745f706f5f22]), ([0x657a697372646461], [0x6574756c6f736261]), ([0x65706f6373], [0x31]), ([0x666564], [0x3432312b3435352b3737352b363031]), ([0x666572], [0x363031]), ([0x6c6176], [0x344139417830]), ([0x676573], [0x30]), ([0x65707974], [0x62616c])],
  [([0x6469], [0x323232]), ([0x656d616e], [0x2233345f6c6961745f30365f656761705f6b6369745f706f5f22]), ([0x657a697372646461], [0x6574756c6f736261]), ([0x65706f6373], [0x31]), ([0x666564], [0x3432312b383433312b3737352b363031]), ([0x666572], [0x363031]), ([0x6c6176], [0x314139417830]), ([0x676573], [0x30]), ([0x65707974], [0x62616c])],
  [([0x6469], [0x333232]), ([0x656d616e], [0x2237345f6c6961745f30365f656761705f6b6369745f706f5f22]), ([0x657a697372646461], [0x6574756c6f736261]), ([0x65706f6373], [0x31]), ([0x666564], [0x3432312b3637372b3737352b363031]), ([0x6c6176], [0x453939417830]), ([0x676573], [0x30]), ([0x65707974], [0x62616c])]]

/-- player/iivision.dbg, sym lines 224-255 -/
def symLines7 : List (List (List Nat × List Nat)) := [
  [([0x6469], [0x343232]), ([0x656d616e], [0x2232355f6c6961745f30365f656761705f6b6369745f706f5f22]), ([0x657a697372646461], [0x6574756c6f736261]), ([0x65706f6373], [0x31]), ([0x666564], [0x3432312b3137362b3737352b363031]), ([0x666572], [0x363031]), ([0x6c6176], [0x423939417830]), ([0x676573], [0x30]), ([0x65707974], [0x62616c])],
  [([0x6469], [0x353232]), ([0x656d616e], [0x2236355f6c6961745f30365f656761705f6b6369745f706f5f22]), ([0x657a697372646461], [0x6574756c6f736261]), ([0x65706f6373], [0x31]), ([0x666564], [0x3432312b3839342b3737352b363031]), ([0x666572], [0x363031]), ([0x6c6176], [0x383939417830]), ([0x676573], [0x30]), ([0x65707974], [0x62616c])],
  [([0x6469], [0x363232]), ([0x656d616e], [0x2230365f6c6961745f30365f656761705f6b6369745f706f5f22]), ([0x657a697372646461], [0x6574756c6f736261]), ([0x65706f6373], [0x31]), ([0x666564], [0x3432312b353632312b3737352b363031]), ([0x6c6176], [0x353939417830]), ([0x676573], [0x30]), ([0x65707974], [0x62616c])],
  [([0x6469], [0x373232]), ([0x656d616e], [0x2230365f656761705f365f6b6369745f706f22]), ([0x657a697372646461], [0x6574756c6f736261]), ([0x65706f6373], [0x31]), ([0x666564], [0x3432382b3737352b363031]), ([0x6c6176], [0x433839417830]), ([0x676573], [0x30]), ([0x65707974], [0x62616c])],
  [([0x6469], [0x383232]), ([0x656d616e], [0x22375f6c6961745f30365f656761705f6b6369745f706f5f22]), ([0x657a697372646461], [0x6574756c6f736261]), ([0x65706f6373], [0x31]), ([0x666564], [0x3432312b3330392b3337332b363031]), ([0x6c6176], [0x363839417830]), ([0x676573], [0x30]), ([0x65707974], [0x62616c])],
  [([0x6469], [0x393232]), ([0x656d616e], [0x2231315f6c6961745f30365f656761705f6b6369745f706f5f22]), ([0x657a697372646461], [0x6574756c6f736261]), ([0x65706f6373], [0x31]), ([0x666564], [0x3432312b333732312b3337332b363031]), ([0x6c6176], [0x333839417830]), ([0x676573], [0x30]), ([0x65707974], [0x62616c])],
  [([0x6469], [0x303332]), ([0x656d616e], [0x22706d6a5f30365f656761705f345f6b6369745f706f5f22]), ([0x657a697372646461], [0x6574756c6f736261]), ([0x65706f6373], [0x31]), ([0x666564], [0x3134322b3337332b363031]), ([0x666572], [0x3630312b363031]), ([0x6c6176], [0x393839417830]), ([0x676573], [0x30]), ([0x65707974], [0x62616c])],
  [([0x6469], [0x313332]), ([0x656d616e], [0x2235315f6c6961745f30365f656761705f6b6369745f706f5f22]), ([0x657a697372646461], [0x6574756c6f736261]), ([0x65706f6373], [0x31]), ([0x666564], [0x3432312b3538352b3337332b363031]), ([0x666572], [0x363031]), ([0x6c6176], [0x303839417830]), ([0x676573], [0x30]), ([0x65707974], [0x62616c])],
  [([0x6469], [0x323332]), ([0x656d616e], [0x2239315f6c6961745f30365f656761705f6b6369745f706f5f22]), ([0x657a697372646461], [0x6574756c6f736261]), ([0x65706f6373], [0x31]), ([0x666564], [0x3432312b3737322b3337332b363031]), ([0x666572], [0x363031]), ([0x6c6176], [0x443739417830]), ([0x676573], [0x30]), ([0x65707974], [0x62616c])],
  [([0x6469], [0x333332]), ([0x656d616e], [0x2234325f6c6961745f30365f656761705f6b6369745f706f5f22]), ([0x657a697372646461], [0x6574756c6f736261]), ([0x65706f6373], [0x31]), ([0x666564], [0x3432312b3831352b3337332b363031]), ([0x666572], [0x3630312b363031]), ([0x6c6176], [0x413739417830]), ([0x676573], [0x30]), ([0x65707974], [0x62616c])],
  [([0x6469], [0x343332]), ([0x656d616e], [0x2238325f6c6961745f30365f656761705f6b6369745f706f5f22]), ([0x657a697372646461], [0x6574756c6f736261]), ([0x65706f6373], [0x31]), ([0x666564], [0x3432312b3436312b3337332b363031]), ([0x666572], [0x363031]), ([0x6c6176], [0x373739417830]), ([0x676573], [0x30]), ([0x65707974], [0x62616c])],
  [([0x6469], [0x353332]), ([0x656d616e], [0x2233335f6c6961745f30365f656761705f6b6369745f706f5f22]), ([0x657a697372646461], [0x6574756c6f736261]), ([0x65706f6373], [0x31]), ([0x666564], [0x3432312b3435312b3337332b363031]), ([0x666572], [0x363031]), ([0x6c6176], [0x343739417830]), ([0x676573], [0x30]), ([0x65707974], [0x62616c])],
  [([0x6469], [0x363332]), ([0x656d616e], [0x2237335f6c6961745f30365f656761705f6b6369745f706f5f22]), ([0x657a697372646461], [0x6574756c6f736261]), ([0x65706f6373], [0x31]), ([0x666564], [0x3432312b373532312b3337332b363031]), ([0x666572], [0x363031]), ([0x6c6176], [0x313739417830]), ([0x676573], [0x30]), ([0x65707974], [0x62616c])],
  [([0x6469], [0x373332]), ([0x656d616e], [0x2232345f6c6961745f30365f656761705f6b6369745f706f5f22]), ([0x657a697372646461], [0x6574756c6f736261]), ([0x65706f6373], [0x31]), ([0x666564], [0x3432312b323033312b3337332b363031]), ([0x666572], [0x3630312b363031]), ([0x6c6176], [0x453639417830]), ([0x676573], [0x30]), ([0x65707974], [0x62616c])],
  [([0x6469], [0x383332]), ([0x656d616e], [0x2236345f6c6961745f30365f656761705f6b6369745f706f5f22]), ([0x657a697372646461], [0x6574756c6f736261]), ([0x65706f6373], [0x31]), ([0x666564], [0x3432312b3530382b3337332b363031]), ([0x666572], [0x363031]), ([0x6c6176], [0x423639417830]), ([0x676573], [0x30]), ([0x65707974], [0x62616c])],
  [([0x6469], [0x393332]), ([0x656d616e], [0x2231355f6c6961745f30365f656761705f6b6369745f706f5f22]), ([0x657a697372646461], [0x6574756c6f736261]), ([0x65706f6373], [0x31]), ([0x666564], [0x3432312b343231312b3337332b363031]), ([0x666572], [0x363031]), ([0x6c6176], [0x383639417830]), ([0x676573], [0x30]), ([0x65707974], [0x62616c])],
  [([0x6469], [0x303432]), ([0x656d616e], [0x2235355f6c6961745f30365f656761705f6b6369745f706f5f22]), ([0x657a697372646461], [0x6574756c6f736261]), ([0x65706f6373], [0x31]), ([0x666564], [0x3432312b3332332b3337332b363031]), ([0x666572], [0x363031]), ([0x6c6176], [0x353639417830]), ([0x676573], [0x30]), ([0x65707974], [0x62616c])],
  [([0x6469], [0x313432]), ([0x656d616e], [0x2239355f6c6961745f30365f656761705f6b6369745f706f5f22]), ([0x657a697372646461], [0x6574756c6f736261]), ([0x65706f6373], [0x31]), ([0x666564], [0x3432312b323431312b3337332b363031]), ([0x6c6176], [0x323639417830]), ([0x676573], [0x30]), ([0x65707974], [0x62616c])],
  [([0x6469], [0x323432]), ([0x656d616e], [0x2230365f656761705f345f6b6369745f706f22]), ([0x657a697372646461], [0x6574756c6f736261]), ([0x65706f6373], [0x31]), ([0x666564], [0x323630312b3337332b363031]), ([0x6c6176], [0x383539417830]), ([0x676573], [0x30]), ([0x65707974], [0x62616c])],
  [([0x6469], [0x333432]), ([0x656d616e], [0x22444022]), ([0x657a697372646461], [0x6574756c6f736261]), ([0x746e65726170], [0x343432]), ([0x666564], [0x3435322b3833312b393336]), ([0x666572], [0x3933362b393336]), ([0x6c6176], [0x353539417830]), ([0x676573], [0x30]), ([0x65707974], [0x62616c])],
  [([0x6469], [0x343432]), ([0x656d616e], [0x2239355f656761705f36365f6b6369745f706f22]), ([0x657a697372646461], [0x6574756c6f736261]), ([0x65706f6373], [0x31]), ([0x666564], [0x3739362b3833312b393336]), ([0x6c6176], [0x343239417830]), ([0x676573], [0x30]), ([0x65707974], [0x62616c])],
  [([0x6469], [0x353432]), ([0x656d616e], [0x22444022]), ([0x657a697372646461], [0x6574756c6f736261]), ([0x746e65726170], [0x363432]), ([0x666564], [0x3030372b313030312b393336]), ([0x666572], [0x3933362b393336]), ([0x6c6176], [0x313239417830]), ([0x676573], [0x30]), ([0x65707974], [0x62616c])],
  [([0x6469], [0x363432]), ([0x656d616e], [0x2239355f656761705f34365f6b6369745f706f22]), ([0x657a697372646461], [0x6574756c6f736261]), ([0x65706f6373], [0x31]), ([0x666564], [0x3937392b313030312b393336]), ([0x6c6176], [0x304638417830]), ([0x676573], [0x30]), ([0x65707974], [0x62616c])],
  [([0x6469], [0x373432]), ([0x656d616e], [0x22444022]), ([0x657a697372646461], [0x6574756c6f736261]), ([0x746e65726170], [0x383432]), ([0x666564], [0x3033382b3436362b393336]), ([0x666572], [0x3933362b393336]), ([0x6c6176], [0x444538417830]), ([0x676573], [0x30]), ([0x65707974], [0x62616c])],
  [([0x6469], [0x383432]), ([0x656d616e], [0x2239355f656761705f32365f6b6369745f706f22]), ([0x657a697372646461], [0x6574756c6f736261]), ([0x65706f6373], [0x31]), ([0x666564], [0x3236322b3436362b393336]), ([0x6c6176], [0x434238417830]), ([0x676573], [0x30]), ([0x65707974], [0x62616c])],
  [([0x6469], [0x393432]), ([0x656d616e], [0x22444022]), ([0x657a697372646461], [0x6574756c6f736261]), ([0x746e65726170], [0x303532]), ([0x666564], [0x3332382b3937372b393336]), ([0x666572], [0x3933362b393336]), ([0x6c6176], [0x394238417830]), ([0x676573], [0x30]), ([0x65707974], [0x62616c])],
  [([0x6469], [0x303532]), ([0x656d616e], [0x2239355f656761705f30365f6b6369745f706f22]), ([0x657a697372646461], [0x6574756c6f736261]), ([0x65706f6373], [0x31]), ([0x666564], [0x3532372b3937372b393336]), ([0x6c6176], [0x383838417830]), ([0x676573], [0x30]), ([0x65707974], [0x62616c])],
  [([0x6469], [0x313532]), ([0x656d616e], [0x22444022]), ([0x657a697372646461], [0x6574756c6f736261]), ([0x746e65726170], [0x323532]), ([0x666564], [0x383831312b3031352b393336]), ([0x666572], [0x3933362b393336]), ([0x6c6176], [0x353838417830]), ([0x676573], [0x30]), ([0x65707974], [0x62616c])],
  [([0x6469], [0x323532]), ([0x656d616e], [0x2239355f656761705f38355f6b6369745f706f22]), ([0x657a697372646461], [0x6574756c6f736261]), ([0x65706f6373], [0x31]), ([0x666564], [0x3638392b3031352b393336]), ([0x6c6176], [0x343538417830]), ([0x676573], [0x30]), ([0x65707974], [0x62616c])],
  [([0x6469], [0x333532]), ([0x656d616e], [0x22444022]), ([0x657a697372646461], [0x6574756c6f736261]), ([0x746e65726170], [0x343532]), ([0x666564], [0x3130382b3430372b393336]), ([0x666572], [0x3933362b393336]), ([0x6c6176], [0x313538417830]), ([0x676573], [0x30]), ([0x65707974], [0x62616c])],
  [([0x6469], [0x343532]), ([0x656d616e], [0x2239355f656761705f36355f6b6369745f706f22]), ([0x657a697372646461], [0x6574756c6f736261]), ([0x65706f6373], [0x31]), ([0x666564], [0x363832312b3430372b393336]), ([0x6c6176], [0x303238417830]), ([0x676573], [0x30]), ([0x65707974], [0x62616c])],
  [([0x6469], [0x353532]), ([0x656d616e], [0x22444022]), ([0x657a697372646461], [0x6574756c6f736261]), ([0x746e65726170], [0x363532]), ([0x666564], [0x323230312b3132362b393336]), ([0x666572], [0x3933362b393336]), ([0x6c6176], [0x443138417830]), ([0x676573], [0x30]), ([0x65707974], [0x62616c])]]

/-- player/iivision.dbg, sym lines 256-287 -/
def symLines8 : List (List (List Nat × List Nat)) := [
  [([0x6469], [0x363532]), ([0x656d616e], [0x2239355f656761705f34355f6b6369745f706f22]), ([0x657a697372646461], [0x6574756c6f736261]), ([0x65706f6373], [0x31]), ([0x666564], [0x313032312b3132362b393336]), ([0x6c6176], [0x434537417830]), ([0x676573], [0x30]), ([0x65707974], [0x62616c])],
  [([0x6469], [0x373532]), ([0x656d616e], [0x2239355f656761705f32355f6b6369745f706f22]), ([0x657a697372646461], [0x6574756c6f736261]), ([0x65706f6373], [0x31]), ([0x666564], [0x3335312b3438382b393336]), ([0x6c6176], [0x314337417830]), ([0x676573], [0x30]), ([0x65707974], [0x62616c])],
  [([0x6469], [0x383532]), ([0x656d616e], [0x2239355f656761705f30355f6b6369745f706f22]), ([0x657a697372646461], [0x6574756c6f736261]), ([0x65706f6373], [0x31]), ([0x666564], [0x3236392b3431312b393336]), ([0x6c6176], [0x393937417830]), ([0x676573], [0x30]), ([0x65707974], [0x62616c])],
  [([0x6469], [0x393532]), ([0x656d616e], [0x2239355f656761705f38345f6b6369745f706f22]), ([0x657a697372646461], [0x6574756c6f736261]), ([0x65706f6373], [0x31]), ([0x666564], [0x3933342b363230312b393336]), ([0x6c6176], [0x303737417830]), ([0x676573], [0x30]), ([0x65707974], [0x62616c])],
  [([0x6469], [0x303632]), ([0x656d616e], [0x2239355f656761705f36345f6b6369745f706f22]), ([0x657a697372646461], [0x6574756c6f736261]), ([0x65706f6373], [0x31]), ([0x666564], [0x343430312b3734362b393336]), ([0x6c6176], [0x423437417830]), ([0x676573], [0x30]), ([0x65707974], [0x62616c])],
  [([0x6469], [0x313632]), ([0x656d616e], [0x2239355f656761705f34345f6b6369745f706f22]), ([0x657a697372646461], [0x6574756c6f736261]), ([0x65706f6373], [0x31]), ([0x666564], [0x3634352b3836322b393336]), ([0x6c6176], [0x353237417830]), ([0x676573], [0x30]), ([0x65707974], [0x62616c])],
  [([0x6469], [0x323632]), ([0x656d616e], [0x2239355f656761705f32345f6b6369745f706f22]), ([0x657a697372646461], [0x6574756c6f736261]), ([0x65706f6373], [0x31]), ([0x666564], [0x37362b32362b393336]), ([0x6c6176], [0x323037417830]), ([0x676573], [0x30]), ([0x65707974], [0x62616c])],
  [([0x6469], [0x333632]), ([0x656d616e], [0x2239355f656761705f30345f6b6369745f706f22]), ([0x657a697372646461], [0x6574756c6f736261]), ([0x65706f6373], [0x31]), ([0x666564], [0x323232312b343131312b393336]), ([0x6c6176], [0x464436417830]), ([0x676573], [0x30]), ([0x65707974], [0x62616c])],
  [([0x6469], [0x343632]), ([0x656d616e], [0x2239355f656761705f38335f6b6369745f706f22]), ([0x657a697372646461], [0x6574756c6f736261]), ([0x65706f6373], [0x31]), ([0x666564], [0x353633312b3930362b393336]), ([0x6c6176], [0x464236417830]), ([0x676573], [0x30]), ([0x65707974], [0x62616c])],
  [([0x6469], [0x353632]), ([0x656d616e], [0x22444022]), ([0x657a697372646461], [0x6574756c6f736261]), ([0x746e65726170], [0x363632]), ([0x666564], [0x333932312b363332312b393336]), ([0x666572], [0x3933362b393336]), ([0x6c6176], [0x434236417830]), ([0x676573], [0x30]), ([0x65707974], [0x62616c])],
  [([0x6469], [0x363632]), ([0x656d616e], [0x2239355f656761705f36335f6b6369745f706f22]), ([0x657a697372646461], [0x6574756c6f736261]), ([0x65706f6373], [0x31]), ([0x666564], [0x3036382b363332312b393336]), ([0x6c6176], [0x423836417830]), ([0x676573], [0x30]), ([0x65707974], [0x62616c])],
  [([0x6469], [0x373632]), ([0x656d616e], [0x2239355f656761705f34335f6b6369745f706f22]), ([0x657a697372646461], [0x6574756c6f736261]), ([0x65706f6373], [0x31]), ([0x666564], [0x343030312b363330312b393336]), ([0x6c6176], [0x353636417830]), ([0x676573], [0x30]), ([0x65707974], [0x62616c])],
  [([0x6469], [0x383632]), ([0x656d616e], [0x2239355f656761705f32335f6b6369745f706f22]), ([0x657a697372646461], [0x6574756c6f736261]), ([0x65706f6373], [0x31]), ([0x666564], [0x3234362b393230312b393336]), ([0x6c6176], [0x393436417830]), ([0x676573], [0x30]), ([0x65707974], [0x62616c])],
  [([0x6469], [0x393632]), ([0x656d616e], [0x2239355f656761705f30335f6b6369745f706f22]), ([0x657a697372646461], [0x6574756c6f736261]), ([0x65706f6373], [0x31]), ([0x666564], [0x373330312b373130312b393336]), ([0x6c6176], [0x433236417830]), ([0x676573], [0x30]), ([0x65707974], [0x62616c])],
  [([0x6469], [0x303732]), ([0x656d616e], [0x2239355f656761705f38325f6b6369745f706f22]), ([0x657a697372646461], [0x6574756c6f736261]), ([0x65706f6373], [0x31]), ([0x666564], [0x3231322b3637312b393336]), ([0x6c6176], [0x333136417830]), ([0x676573], [0x30]), ([0x65707974], [0x62616c])],
  [([0x6469], [0x313732]), ([0x656d616e], [0x2239355f656761705f36325f6b6369745f706f22]), ([0x657a697372646461], [0x6574756c6f736261]), ([0x65706f6373], [0x31]), ([0x666564], [0x3038352b3831322b393336]), ([0x6c6176], [0x394635417830]), ([0x676573], [0x30]), ([0x65707974], [0x62616c])],
  [([0x6469], [0x323732]), ([0x656d616e], [0x2239355f656761705f34325f6b6369745f706f22]), ([0x657a697372646461], [0x6574756c6f736261]), ([0x65706f6373], [0x31]), ([0x666564], [0x3837362b333232312b393336]), ([0x6c6176], [0x324535417830]), ([0x676573], [0x30]), ([0x65707974], [0x62616c])],
  [([0x6469], [0x333732]), ([0x656d616e], [0x2239355f656761705f32325f6b6369745f706f22]), ([0x657a697372646461], [0x6574756c6f736261]), ([0x65706f6373], [0x31]), ([0x666564], [0x323931312b373033312b393336]), ([0x6c6176], [0x424335417830]), ([0x676573], [0x30]), ([0x65707974], [0x62616c])],
  [([0x6469], [0x343732]), ([0x656d616e], [0x2239355f656761705f30325f6b6369745f706f22]), ([0x657a697372646461], [0x6574756c6f736261]), ([0x65706f6373], [0x31]), ([0x666564], [0x32332b373732312b393336]), ([0x6c6176], [0x374235417830]), ([0x676573], [0x30]), ([0x65707974], [0x62616c])],
  [([0x6469], [0x353732]), ([0x656d616e], [0x22444022]), ([0x657a697372646461], [0x6574756c6f736261]), ([0x746e65726170], [0x363732]), ([0x666564], [0x3430352b38392b393336]), ([0x666572], [0x3933362b393336]), ([0x6c6176], [0x344235417830]), ([0x676573], [0x30]), ([0x65707974], [0x62616c])],
  [([0x6469], [0x363732]), ([0x656d616e], [0x2239355f656761705f38315f6b6369745f706f22]), ([0x657a697372646461], [0x6574756c6f736261]), ([0x65706f6373], [0x31]), ([0x666564], [0x323032312b38392b393336]), ([0x6c6176], [0x333835417830]), ([0x676573], [0x30]), ([0x65707974], [0x62616c])],
  [([0x6469], [0x373732]), ([0x656d616e], [0x2239355f656761705f36315f6b6369745f706f22]), ([0x657a697372646461], [0x6574756c6f736261]), ([0x65706f6373], [0x31]), ([0x666564], [0x3032382b3332392b393336]), ([0x6c6176], [0x433635417830]), ([0x676573], [0x30]), ([0x65707974], [0x62616c])],
  [([0x6469], [0x383732]), ([0x656d616e], [0x2239355f656761705f34315f6b6369745f706f22]), ([0x657a697372646461], [0x6574756c6f736261]), ([0x65706f6373], [0x31]), ([0x666564], [0x33312b3430332b393336]), ([0x6c6176], [0x433535417830]), ([0x676573], [0x30]), ([0x65707974], [0x62616c])],
  [([0x6469], [0x393732]), ([0x656d616e], [0x2239355f656761705f32315f6b6369745f706f22]), ([0x657a697372646461], [0x6574756c6f736261]), ([0x65706f6373], [0x31]), ([0x666564], [0x3736372b383431312b393336]), ([0x6c6176], [0x423435417830]), ([0x676573], [0x30]), ([0x65707974], [0x62616c])],
  [([0x6469], [0x303832]), ([0x656d616e], [0x2239355f656761705f30315f6b6369745f706f22]), ([0x657a697372646461], [0x6574756c6f736261]), ([0x65706f6373], [0x31]), ([0x666564], [0x3334392b3334372b393336]), ([0x6c6176], [0x453335417830]), ([0x676573], [0x30]), ([0x65707974], [0x62616c])],
  [([0x6469], [0x313832]), ([0x656d616e], [0x2239355f656761705f385f6b6369745f706f22]), ([0x657a697372646461], [0x6574756c6f736261]), ([0x65706f6373], [0x31]), ([0x666564], [0x3132382b3037332b393336]), ([0x6c6176], [0x303335417830]), ([0x676573], [0x30]), ([0x65707974], [0x62616c])],
  [([0x6469], [0x323832]), ([0x656d616e], [0x22385f6c6961745f39355f656761705f6b6369745f706f5f22]), ([0x657a697372646461], [0x6574756c6f736261]), ([0x65706f6373], [0x31]), ([0x666564], [0x3432312b3033362b3737352b393336]), ([0x6c6176], [0x413235417830]), ([0x676573], [0x30]), ([0x65707974], [0x62616c])],
  [([0x6469], [0x333832]), ([0x656d616e], [0x2232315f6c6961745f39355f656761705f6b6369745f706f5f22]), ([0x657a697372646461], [0x6574756c6f736261]), ([0x65706f6373], [0x31]), ([0x666564], [0x3432312b383430312b3737352b393336]), ([0x666572], [0x393336]), ([0x6c6176], [0x373235417830]), ([0x676573], [0x30]), ([0x65707974], [0x62616c])],
  [([0x6469], [0x343832]), ([0x656d616e], [0x22706d6a5f39355f656761705f365f6b6369745f706f5f22]), ([0x657a697372646461], [0x6574756c6f736261]), ([0x65706f6373], [0x31]), ([0x666564], [0x3735372b3737352b393336]), ([0x666572], [0x3933362b3933362b393336]), ([0x6c6176], [0x443235417830]), ([0x676573], [0x30]), ([0x65707974], [0x62616c])],
  [([0x6469], [0x353832]), ([0x656d616e], [0x2236315f6c6961745f39355f656761705f6b6369745f706f5f22]), ([0x657a697372646461], [0x6574756c6f736261]), ([0x65706f6373], [0x31]), ([0x666564], [0x3432312b3837312b3737352b393336]), ([0x666572], [0x393336]), ([0x6c6176], [0x343235417830]), ([0x676573], [0x30]), ([0x65707974], [0x62616c])],
  [([0x6469], [0x363832]), ([0x656d616e], [0x2230325f6c6961745f39355f656761705f6b6369745f706f5f22]), ([0x657a697372646461], [0x6574756c6f736261]), ([0x65706f6373], [0x31]), ([0x666564], [0x3432312b3238362b3737352b393336]), ([0x666572], [0x3933362b393336]), ([0x6c6176], [0x313235417830]), ([0x676573], [0x30]), ([0x65707974], [0x62616c])],
  [([0x6469], [0x373832]), ([0x656d616e], [0x2235325f6c6961745f39355f656761705f6b6369745f706f5f22]), ([0x657a697372646461], [0x6574756c6f736261]), ([0x65706f6373], [0x31]), ([0x666564], [0x3432312b353431312b3737352b393336]), ([0x6c6176], [0x453135417830]), ([0x676573], [0x30]), ([0x65707974], [0x62616c])]]

/-- player/iivision.dbg, sym lines 288-319 -/
def symLines9 : List (List (List Nat × List Nat)) := [
  [([0x6469], [0x383832]), ([0x656d616e], [0x2239325f6c6961745f39355f656761705f6b6369745f706f5f22]), ([0x657a697372646461], [0x6574756c6f736261]), ([0x65706f6373], [0x31]), ([0x666564], [0x3432312b343632312b3737352b393336]), ([0x6c6176], [0x423135417830]), ([0x676573], [0x30]), ([0x65707974], [0x62616c])],
  [([0x6469], [0x393832]), ([0x656d616e], [0x2234335f6c6961745f39355f656761705f6b6369745f706f5f22]), ([0x657a697372646461], [0x6574756c6f736261]), ([0x65706f6373], [0x31]), ([0x666564], [0x3432312b3538342b3737352b393336]), ([0x666572], [0x393336]), ([0x6c6176], [0x383135417830]), ([0x676573], [0x30]), ([0x65707974], [0x62616c])],
  [([0x6469], [0x303932]), ([0x656d616e], [0x2238335f6c6961745f39355f656761705f6b6369745f706f5f22]), ([0x657a697372646461], [0x6574756c6f736261]), ([0x65706f6373], [0x31]), ([0x666564], [0x3432312b3435352b3737352b393336]), ([0x666572], [0x393336]), ([0x6c6176], [0x353135417830]), ([0x676573], [0x30]), ([0x65707974], [0x62616c])],
  [([0x6469], [0x313932]), ([0x656d616e], [0x2233345f6c6961745f39355f656761705f6b6369745f706f5f22]), ([0x657a697372646461], [0x6574756c6f736261]), ([0x65706f6373], [0x31]), ([0x666564], [0x3432312b383433312b3737352b393336]), ([0x666572], [0x393336]), ([0x6c6176], [0x323135417830]), ([0x676573], [0x30]), ([0x65707974], [0x62616c])],
  [([0x6469], [0x323932]), ([0x656d616e], [0x2237345f6c6961745f39355f656761705f6b6369745f706f5f22]), ([0x657a697372646461], [0x6574756c6f736261]), ([0x65706f6373], [0x31]), ([0x666564], [0x3432312b3637372b3737352b393336]), ([0x6c6176], [0x463035417830]), ([0x676573], [0x30]), ([0x65707974], [0x62616c])],
  [([0x6469], [0x333932]), ([0x656d616e], [0x2232355f6c6961745f39355f656761705f6b6369745f706f5f22]), ([0x657a697372646461], [0x6574756c6f736261]), ([0x65706f6373], [0x31]), ([0x666564], [0x3432312b3137362b3737352b393336]), ([0x666572], [0x393336]), ([0x6c6176], [0x433035417830]), ([0x676573], [0x30]), ([0x65707974], [0x62616c])],
  [([0x6469], [0x343932]), ([0x656d616e], [0x2236355f6c6961745f39355f656761705f6b6369745f706f5f22]), ([0x657a697372646461], [0x6574756c6f736261]), ([0x65706f6373], [0x31]), ([0x666564], [0x3432312b3839342b3737352b393336]), ([0x666572], [0x393336]), ([0x6c6176], [0x393035417830]), ([0x676573], [0x30]), ([0x65707974], [0x62616c])],
  [([0x6469], [0x353932]), ([0x656d616e], [0x2230365f6c6961745f39355f656761705f6b6369745f706f5f22]), ([0x657a697372646461], [0x6574756c6f736261]), ([0x65706f6373], [0x31]), ([0x666564], [0x3432312b353632312b3737352b393336]), ([0x6c6176], [0x363035417830]), ([0x676573], [0x30]), ([0x65707974], [0x62616c])],
  [([0x6469], [0x363932]), ([0x656d616e], [0x2239355f656761705f365f6b6369745f706f22]), ([0x657a697372646461], [0x6574756c6f736261]), ([0x65706f6373], [0x31]), ([0x666564], [0x3432382b3737352b393336]), ([0x6c6176], [0x444634417830]), ([0x676573], [0x30]), ([0x65707974], [0x62616c])],
  [([0x6469], [0x373932]), ([0x656d616e], [0x22375f6c6961745f39355f656761705f6b6369745f706f5f22]), ([0x657a697372646461], [0x6574756c6f736261]), ([0x65706f6373], [0x31]), ([0x666564], [0x3432312b3330392b3337332b393336]), ([0x6c6176], [0x374634417830]), ([0x676573], [0x30]), ([0x65707974], [0x62616c])],
  [([0x6469], [0x383932]), ([0x656d616e], [0x2231315f6c6961745f39355f656761705f6b6369745f706f5f22]), ([0x657a697372646461], [0x6574756c6f736261]), ([0x65706f6373], [0x31]), ([0x666564], [0x3432312b333732312b3337332b393336]), ([0x6c6176], [0x344634417830]), ([0x676573], [0x30]), ([0x65707974], [0x62616c])],
  [([0x6469], [0x393932]), ([0x656d616e], [0x22706d6a5f39355f656761705f345f6b6369745f706f5f22]), ([0x657a697372646461], [0x6574756c6f736261]), ([0x65706f6373], [0x31]), ([0x666564], [0x3134322b3337332b393336]), ([0x666572], [0x3933362b393336]), ([0x6c6176], [0x414634417830]), ([0x676573], [0x30]), ([0x65707974], [0x62616c])],
  [([0x6469], [0x303033]), ([0x656d616e], [0x2235315f6c6961745f39355f656761705f6b6369745f706f5f22]), ([0x657a697372646461], [0x6574756c6f736261]), ([0x65706f6373], [0x31]), ([0x666564], [0x3432312b3538352b3337332b393336]), ([0x666572], [0x393336]), ([0x6c6176], [0x314634417830]), ([0x676573], [0x30]), ([0x65707974], [0x62616c])],
  [([0x6469], [0x313033]), ([0x656d616e], [0x2239315f6c6961745f39355f656761705f6b6369745f706f5f22]), ([0x657a697372646461], [0x6574756c6f736261]), ([0x65706f6373], [0x31]), ([0x666564], [0x3432312b3737322b3337332b393336]), ([0x666572], [0x393336]), ([0x6c6176], [0x454534417830]), ([0x676573], [0x30]), ([0x65707974], [0x62616c])],
  [([0x6469], [0x323033]), ([0x656d616e], [0x2234325f6c6961745f39355f656761705f6b6369745f706f5f22]), ([0x657a697372646461], [0x6574756c6f736261]), ([0x65706f6373], [0x31]), ([0x666564], [0x3432312b3831352b3337332b393336]), ([0x666572], [0x3933362b393336]), ([0x6c6176], [0x424534417830]), ([0x676573], [0x30]), ([0x65707974], [0x62616c])],
  [([0x6469], [0x333033]), ([0x656d616e], [0x2238325f6c6961745f39355f656761705f6b6369745f706f5f22]), ([0x657a697372646461], [0x6574756c6f736261]), ([0x65706f6373], [0x31]), ([0x666564], [0x3432312b3436312b3337332b393336]), ([0x666572], [0x393336]), ([0x6c6176], [0x384534417830]), ([0x676573], [0x30]), ([0x65707974], [0x62616c])],
  [([0x6469], [0x343033]), ([0x656d616e], [0x2233335f6c6961745f39355f656761705f6b6369745f706f5f22]), ([0x657a697372646461], [0x6574756c6f736261]), ([0x65706f6373], [0x31]), ([0x666564], [0x3432312b3435312b3337332b393336]), ([0x666572], [0x393336]), ([0x6c6176], [0x354534417830]), ([0x676573], [0x30]), ([0x65707974], [0x62616c])],
  [([0x6469], [0x353033]), ([0x656d616e], [0x2237335f6c6961745f39355f656761705f6b6369745f706f5f22]), ([0x657a697372646461], [0x6574756c6f736261]), ([0x65706f6373], [0x31]), ([0x666564], [0x3432312b373532312b3337332b393336]), ([0x666572], [0x393336]), ([0x6c6176], [0x324534417830]), ([0x676573], [0x30]), ([0x65707974], [0x62616c])],
  [([0x6469], [0x363033]), ([0x656d616e], [0x2232345f6c6961745f39355f656761705f6b6369745f706f5f22]), ([0x657a697372646461], [0x6574756c6f736261]), ([0x65706f6373], [0x31]), ([0x666564], [0x3432312b323033312b3337332b393336]), ([0x666572], [0x3933362b393336]), ([0x6c6176], [0x464434417830]), ([0x676573], [0x30]), ([0x65707974], [0x62616c])],
  [([0x6469], [0x373033]), ([0x656d616e], [0x2236345f6c6961745f39355f656761705f6b6369745f706f5f22]), ([0x657a697372646461], [0x6574756c6f736261]), ([0x65706f6373], [0x31]), ([0x666564], [0x3432312b3530382b3337332b393336]), ([0x666572], [0x393336]), ([0x6c6176], [0x434434417830]), ([0x676573], [0x30]), ([0x65707974], [0x62616c])],
  [([0x6469], [0x383033]), ([0x656d616e], [0x2231355f6c6961745f39355f656761705f6b6369745f706f5f22]), ([0x657a697372646461], [0x6574756c6f736261]), ([0x65706f6373], [0x31]), ([0x666564], [0x3432312b343231312b3337332b393336]), ([0x666572], [0x393336]), ([0x6c6176], [0x394434417830]), ([0x676573], [0x30]), ([0x65707974], [0x62616c])],
  [([0x6469], [0x393033]), ([0x656d616e], [0x2235355f6c6961745f39355f656761705f6b6369745f706f5f22]), ([0x657a697372646461], [0x6574756c6f736261]), ([0x65706f6373], [0x31]), ([0x666564], [0x3432312b3332332b3337332b393336]), ([0x666572], [0x393336]), ([0x6c6176], [0x364434417830]), ([0x676573], [0x30]), ([0x65707974], [0x62616c])],
  [([0x6469], [0x303133]), ([0x656d616e], [0x2239355f6c6961745f39355f656761705f6b6369745f706f5f22]), ([0x657a697372646461], [0x6574756c6f736261]), ([0x65706f6373], [0x31]), ([0x666564], [0x3432312b323431312b3337332b393336]), ([0x6c6176], [0x334434417830]), ([0x676573], [0x30]), ([0x65707974], [0x62616c])],
  [([0x6469], [0x313133]), ([0x656d616e], [0x2239355f656761705f345f6b6369745f706f22]), ([0x657a697372646461], [0x6574756c6f736261]), ([0x65706f6373], [0x31]), ([0x666564], [0x323630312b3337332b393336]), ([0x6c6176], [0x394334417830]), ([0x676573], [0x30]), ([0x65707974], [0x62616c])],
  [([0x6469], [0x323133]), ([0x656d616e], [0x22444022]), ([0x657a697372646461], [0x6574756c6f736261]), ([0x746e65726170], [0x333133]), ([0x666564], [0x3435322b3833312b35383031]), ([0x666572], [0x353830312b35383031]), ([0x6c6176], [0x364334417830]), ([0x676573], [0x30]), ([0x65707974], [0x62616c])],
  [([0x6469], [0x333133]), ([0x656d616e], [0x2238355f656761705f36365f6b6369745f706f22]), ([0x657a697372646461], [0x6574756c6f736261]), ([0x65706f6373], [0x31]), ([0x666564], [0x3739362b3833312b35383031]), ([0x6c6176], [0x353934417830]), ([0x676573], [0x30]), ([0x65707974], [0x62616c])],
  [([0x6469], [0x343133]), ([0x656d616e], [0x22444022]), ([0x657a697372646461], [0x6574756c6f736261]), ([0x746e65726170], [0x353133]), ([0x666564], [0x3030372b313030312b35383031]), ([0x666572], [0x353830312b35383031]), ([0x6c6176], [0x323934417830]), ([0x676573], [0x30]), ([0x65707974], [0x62616c])],
  [([0x6469], [0x353133]), ([0x656d616e], [0x2238355f656761705f34365f6b6369745f706f22]), ([0x657a697372646461], [0x6574756c6f736261]), ([0x65706f6373], [0x31]), ([0x666564], [0x3937392b313030312b35383031]), ([0x6c6176], [0x313634417830]), ([0x676573], [0x30]), ([0x65707974], [0x62616c])],
  [([0x6469], [0x363133]), ([0x656d616e], [0x22444022]), ([0x657a697372646461], [0x6574756c6f736261]), ([0x746e65726170], [0x373133]), ([0x666564], [0x3033382b3436362b35383031]), ([0x666572], [0x353830312b35383031]), ([0x6c6176], [0x453534417830]), ([0x676573], [0x30]), ([0x65707974], [0x62616c])],
  [([0x6469], [0x373133]), ([0x656d616e], [0x2238355f656761705f32365f6b6369745f706f22]), ([0x657a697372646461], [0x6574756c6f736261]), ([0x65706f6373], [0x31]), ([0x666564], [0x3236322b3436362b35383031]), ([0x6c6176], [0x443234417830]), ([0x676573], [0x30]), ([0x65707974], [0x62616c])],
  [([0x6469], [0x383133]), ([0x656d616e], [0x22444022]), ([0x657a697372646461], [0x6574756c6f736261]), ([0x746e65726170], [0x393133]), ([0x666564], [0x3332382b3937372b35383031]), ([0x666572], [0x353830312b35383031]), ([0x6c6176], [0x413234417830]), ([0x676573], [0x30]), ([0x65707974], [0x62616c])],
  [([0x6469], [0x393133]), ([0x656d616e], [0x2238355f656761705f30365f6b6369745f706f22]), ([0x657a697372646461], [0x6574756c6f736261]), ([0x65706f6373], [0x31]), ([0x666564], [0x3532372b3937372b35383031]), ([0x6c6176], [0x394633417830]), ([0x676573], [0x30]), ([0x65707974], [0x62616c])]]

/-- player/iivision.dbg, sym lines 320-351 -/
def symLines10 : List (List (List Nat × List Nat)) := [
  [([0x6469], [0x303233]), ([0x656d616e], [0x22444022]), ([0x657a697372646461], [0x6574756c6f736261]), ([0x746e65726170], [0x313233]), ([0x666564], [0x383831312b3031352b35383031]), ([0x666572], [0x353830312b35383031]), ([0x6c6176], [0x364633417830]), ([0x676573], [0x30]), ([0x65707974], [0x62616c])],
  [([0x6469], [0x313233]), ([0x656d616e], [0x2238355f656761705f38355f6b6369745f706f22]), ([0x657a697372646461], [0x6574756c6f736261]), ([0x65706f6373], [0x31]), ([0x666564], [0x3638392b3031352b35383031]), ([0x6c6176], [0x354333417830]), ([0x676573], [0x30]), ([0x65707974], [0x62616c])],
  [([0x6469], [0x323233]), ([0x656d616e], [0x22444022]), ([0x657a697372646461], [0x6574756c6f736261]), ([0x746e65726170], [0x333233]), ([0x666564], [0x3130382b3430372b35383031]), ([0x666572], [0x353830312b35383031]), ([0x6c6176], [0x324333417830]), ([0x676573], [0x30]), ([0x65707974], [0x62616c])],
  [([0x6469], [0x333233]), ([0x656d616e], [0x2238355f656761705f36355f6b6369745f706f22]), ([0x657a697372646461], [0x6574756c6f736261]), ([0x65706f6373], [0x31]), ([0x666564], [0x363832312b3430372b35383031]), ([0x6c6176], [0x313933417830]), ([0x676573], [0x30]), ([0x65707974], [0x62616c])],
  [([0x6469], [0x343233]), ([0x656d616e], [0x22444022]), ([0x657a697372646461], [0x6574756c6f736261]), ([0x746e65726170], [0x353233]), ([0x666564], [0x323230312b3132362b35383031]), ([0x666572], [0x353830312b35383031]), ([0x6c6176], [0x453833417830]), ([0x676573], [0x30]), ([0x65707974], [0x62616c])],
  [([0x6469], [0x353233]), ([0x656d616e], [0x2238355f656761705f34355f6b6369745f706f22]), ([0x657a697372646461], [0x6574756c6f736261]), ([0x65706f6373], [0x31]), ([0x666564], [0x313032312b3132362b35383031]), ([0x6c6176], [0x443533417830]), ([0x676573], [0x30]), ([0x65707974], [0x62616c])],
  [([0x6469], [0x363233]), ([0x656d616e], [0x2238355f656761705f32355f6b6369745f706f22]), ([0x657a697372646461], [0x6574756c6f736261]), ([0x65706f6373], [0x31]), ([0x666564], [0x3335312b3438382b35383031]), ([0x6c6176], [0x323333417830]), ([0x676573], [0x30]), ([0x65707974], [0x62616c])],
  [([0x6469], [0x373233]), ([0x656d616e], [0x2238355f656761705f30355f6b6369745f706f22]), ([0x657a697372646461], [0x6574756c6f736261]), ([0x65706f6373], [0x31]), ([0x666564], [0x3236392b3431312b35383031]), ([0x6c6176], [0x413033417830]), ([0x676573], [0x30]), ([0x65707974], [0x62616c])],
  [([0x6469], [0x383233]), ([0x656d616e], [0x2238355f656761705f38345f6b6369745f706f22]), ([0x657a697372646461], [0x6574756c6f736261]), ([0x65706f6373], [0x31]), ([0x666564], [0x3933342b363230312b35383031]), ([0x6c6176], [0x314532417830]), ([0x676573], [0x30]), ([0x65707974], [0x62616c])],
  [([0x6469], [0x393233]), ([0x656d616e], [0x2238355f656761705f36345f6b6369745f706f22]), ([0x657a697372646461], [0x6574756c6f736261]), ([0x65706f6373], [0x31]), ([0x666564], [0x343430312b3734362b35383031]), ([0x6c6176], [0x434232417830]), ([0x676573], [0x30]), ([0x65707974], [0x62616c])],
  [([0x6469], [0x303333]), ([0x656d616e], [0x2238355f656761705f34345f6b6369745f706f22]), ([0x657a697372646461], [0x6574756c6f736261]), ([0x65706f6373], [0x31]), ([0x666564], [0x3634352b3836322b35383031]), ([0x6c6176], [0x363932417830]), ([0x676573], [0x30]), ([0x65707974], [0x62616c])],
  [([0x6469], [0x313333]), ([0x656d616e], [0x2238355f656761705f32345f6b6369745f706f22]), ([0x657a697372646461], [0x6574756c6f736261]), ([0x65706f6373], [0x31]), ([0x666564], [0x37362b32362b35383031]), ([0x6c6176], [0x333732417830]), ([0x676573], [0x30]), ([0x65707974], [0x62616c])],
  [([0x6469], [0x323333]), ([0x656d616e], [0x2238355f656761705f30345f6b6369745f706f22]), ([0x657a697372646461], [0x6574756c6f736261]), ([0x65706f6373], [0x31]), ([0x666564], [0x323232312b343131312b35383031]), ([0x6c6176], [0x303532417830]), ([0x676573], [0x30]), ([0x65707974], [0x62616c])],
  [([0x6469], [0x333333]), ([0x656d616e], [0x2238355f656761705f38335f6b6369745f706f22]), ([0x657a697372646461], [0x6574756c6f736261]), ([0x65706f6373], [0x31]), ([0x666564], [0x353633312b3930362b35383031]), ([0x6c6176], [0x303332417830]), ([0x676573], [0x30]), ([0x65707974], [0x62616c])],
  [([0x6469], [0x343333]), ([0x656d616e], [0x22444022]), ([0x657a697372646461], [0x6574756c6f736261]), ([0x746e65726170], [0x353333]), ([0x666564], [0x333932312b363332312b35383031]), ([0x666572], [0x353830312b35383031]), ([0x6c6176], [0x443232417830]), ([0x676573], [0x30]), ([0x65707974], [0x62616c])],
  [([0x6469], [0x353333]), ([0x656d616e], [0x2238355f656761705f36335f6b6369745f706f22]), ([0x657a697372646461], [0x6574756c6f736261]), ([0x65706f6373], [0x31]), ([0x666564], [0x3036382b363332312b35383031]), ([0x6c6176], [0x434631417830]), ([0x676573], [0x30]), ([0x65707974], [0x62616c])],
  [([0x6469], [0x363333]), ([0x656d616e], [0x2238355f656761705f34335f6b6369745f706f22]), ([0x657a697372646461], [0x6574756c6f736261]), ([0x65706f6373], [0x31]), ([0x666564], [0x343030312b363330312b35383031]), ([0x6c6176], [0x364431417830]), ([0x676573], [0x30]), ([0x65707974], [0x62616c])],
  [([0x6469], [0x373333]), ([0x656d616e], [0x2238355f656761705f32335f6b6369745f706f22]), ([0x657a697372646461], [0x6574756c6f736261]), ([0x65706f6373], [0x31]), ([0x666564], [0x3234362b393230312b35383031]), ([0x6c6176], [0x414231417830]), ([0x676573], [0x30]), ([0x65707974], [0x62616c])],
  [([0x6469], [0x383333]), ([0x656d616e], [0x2238355f656761705f30335f6b6369745f706f22]), ([0x657a697372646461], [0x6574756c6f736261]), ([0x65706f6373], [0x31]), ([0x666564], [0x373330312b373130312b35383031]), ([0x6c6176], [0x443931417830]), ([0x676573], [0x30]), ([0x65707974], [0x62616c])],
  [([0x6469], [0x393333]), ([0x656d616e], [0x2238355f656761705f38325f6b6369745f706f22]), ([0x657a697372646461], [0x6574756c6f736261]), ([0x65706f6373], [0x31]), ([0x666564], [0x3231322b3637312b35383031]), ([0x6c6176], [0x343831417830]), ([0x676573], [0x30]), ([0x65707974], [0x62616c])],
  [([0x6469], [0x303433]), ([0x656d616e], [0x2238355f656761705f36325f6b6369745f706f22]), ([0x657a697372646461], [0x6574756c6f736261]), ([0x65706f6373], [0x31]), ([0x666564], [0x3038352b3831322b35383031]), ([0x6c6176], [0x413631417830]), ([0x676573], [0x30]), ([0x65707974], [0x62616c])],
  [([0x6469], [0x313433]), ([0x656d616e], [0x2238355f656761705f34325f6b6369745f706f22]), ([0x657a697372646461], [0x6574756c6f736261]), ([0x65706f6373], [0x31]), ([0x666564], [0x3837362b333232312b35383031]), ([0x6c6176], [0x333531417830]), ([0x676573], [0x30]), ([0x65707974], [0x62616c])],
  [([0x6469], [0x323433]), ([0x656d616e], [0x2238355f656761705f32325f6b6369745f706f22]), ([0x657a697372646461], [0x6574756c6f736261]), ([0x65706f6373], [0x31]), ([0x666564], [0x323931312b373033312b35383031]), ([0x6c6176], [0x433331417830]), ([0x676573], [0x30]), ([0x65707974], [0x62616c])],
  [([0x6469], [0x333433]), ([0x656d616e], [0x2238355f656761705f30325f6b6369745f706f22]), ([0x657a697372646461], [0x6574756c6f736261]), ([0x65706f6373], [0x31]), ([0x666564], [0x32332b373732312b35383031]), ([0x6c6176], [0x383231417830]), ([0x676573], [0x30]), ([0x65707974], [0x62616c])],
  [([0x6469], [0x343433]), ([0x656d616e], [0x22444022]), ([0x657a697372646461], [0x6574756c6f736261]), ([0x746e65726170], [0x353433]), ([0x666564], [0x3430352b38392b35383031]), ([0x666572], [0x353830312b35383031]), ([0x6c6176], [0x353231417830]), ([0x676573], [0x30]), ([0x65707974], [0x62616c])],
  [([0x6469], [0x353433]), ([0x656d616e], [0x2238355f656761705f38315f6b6369745f706f22]), ([0x657a697372646461], [0x6574756c6f736261]), ([0x65706f6373], [0x31]), ([0x666564], [0x323032312b38392b35383031]), ([0x6c6176], [0x344630417830]), ([0x676573], [0x30]), ([0x65707974], [0x62616c])],
  [([0x6469], [0x363433]), ([0x656d616e], [0x2238355f656761705f36315f6b6369745f706f22]), ([0x657a697372646461], [0x6574756c6f736261]), ([0x65706f6373], [0x31]), ([0x666564], [0x3032382b3332392b35383031]), ([0x6c6176], [0x444430417830]), ([0x676573], [0x30]), ([0x65707974], [0x62616c])],
  [([0x6469], [0x373433]), ([0x656d616e], [0x2238355f656761705f34315f6b6369745f706f22]), ([0x657a697372646461], [0x6574756c6f736261]), ([0x65706f6373], [0x31]), ([0x666564], [0x33312b3430332b35383031]), ([0x6c6176], [0x444330417830]), ([0x676573], [0x30]), ([0x65707974], [0x62616c])],
  [([0x6469], [0x383433]), ([0x656d616e], [0x2238355f656761705f32315f6b6369745f706f22]), ([0x657a697372646461], [0x6574756c6f736261]), ([0x65706f6373], [0x31]), ([0x666564], [0x3736372b383431312b35383031]), ([0x6c6176], [0x434230417830]), ([0x676573], [0x30]), ([0x65707974], [0x62616c])],
  [([0x6469], [0x393433]), ([0x656d616e], [0x2238355f656761705f30315f6b6369745f706f22]), ([0x657a697372646461], [0x6574756c6f736261]), ([0x65706f6373], [0x31]), ([0x666564], [0x3334392b3334372b35383031]), ([0x6c6176], [0x464130417830]), ([0x676573], [0x30]), ([0x65707974], [0x62616c])],
  [([0x6469], [0x303533]), ([0x656d616e], [0x2238355f656761705f385f6b6369745f706f22]), ([0x657a697372646461], [0x6574756c6f736261]), ([0x65706f6373], [0x31]), ([0x666564], [0x3132382b3037332b35383031]), ([0x6c6176], [0x314130417830]), ([0x676573], [0x30]), ([0x65707974], [0x62616c])],
  [([0x6469], [0x313533]), ([0x656d616e], [0x22385f6c6961745f38355f656761705f6b6369745f706f5f22]), ([0x657a697372646461], [0x6574756c6f736261]), ([0x65706f6373], [0x31]), ([0x666564], [0x3432312b3033362b3737352b35383031]), ([0x6c6176], [0x423930417830]), ([0x676573], [0x30]), ([0x65707974], [0x62616c])]]

/-- player/iivision.dbg, sym lines 352-383 -/
def symLines11 : List (List (List Nat × List Nat)) := [
  [([0x6469], [0x323533]), ([0x656d616e], [0x2232315f6c6961745f38355f656761705f6b6369745f706f5f22]), ([0x657a697372646461], [0x6574756c6f736261]), ([0x65706f6373], [0x31]), ([0x666564], [0x3432312b383430312b3737352b35383031]), ([0x666572], [0x35383031]), ([0x6c6176], [0x383930417830]), ([0x676573], [0x30]), ([0x65707974], [0x62616c])],
  [([0x6469], [0x333533]), ([0x656d616e], [0x22706d6a5f38355f656761705f365f6b6369745f706f5f22]), ([0x657a697372646461], [0x6574756c6f736261]), ([0x65706f6373], [0x31]), ([0x666564], [0x3735372b3737352b35383031]), ([0x666572], [0x353830312b353830312b35383031]), ([0x6c6176], [0x453930417830]), ([0x676573], [0x30]), ([0x65707974], [0x62616c])],
  [([0x6469], [0x343533]), ([0x656d616e], [0x2236315f6c6961745f38355f656761705f6b6369745f706f5f22]), ([0x657a697372646461], [0x6574756c6f736261]), ([0x65706f6373], [0x31]), ([0x666564], [0x3432312b3837312b3737352b35383031]), ([0x666572], [0x35383031]), ([0x6c6176], [0x353930417830]), ([0x676573], [0x30]), ([0x65707974], [0x62616c])],
  [([0x6469], [0x353533]), ([0x656d616e], [0x2230325f6c6961745f38355f656761705f6b6369745f706f5f22]), ([0x657a697372646461], [0x6574756c6f736261]), ([0x65706f6373], [0x31]), ([0x666564], [0x3432312b3238362b3737352b35383031]), ([0x666572], [0x353830312b35383031]), ([0x6c6176], [0x323930417830]), ([0x676573], [0x30]), ([0x65707974], [0x62616c])],
  [([0x6469], [0x363533]), ([0x656d616e], [0x2235325f6c6961745f38355f656761705f6b6369745f706f5f22]), ([0x657a697372646461], [0x6574756c6f736261]), ([0x65706f6373], [0x31]), ([0x666564], [0x3432312b353431312b3737352b35383031]), ([0x6c6176], [0x463830417830]), ([0x676573], [0x30]), ([0x65707974], [0x62616c])],
  [([0x6469], [0x373533]), ([0x656d616e], [0x2239325f6c6961745f38355f656761705f6b6369745f706f5f22]), ([0x657a697372646461], [0x6574756c6f736261]), ([0x65706f6373], [0x31]), ([0x666564], [0x3432312b343632312b3737352b35383031]), ([0x6c6176], [0x433830417830]), ([0x676573], [0x30]), ([0x65707974], [0x62616c])],
  [([0x6469], [0x383533]), ([0x656d616e], [0x2234335f6c6961745f38355f656761705f6b6369745f706f5f22]), ([0x657a697372646461], [0x6574756c6f736261]), ([0x65706f6373], [0x31]), ([0x666564], [0x3432312b3538342b3737352b35383031]), ([0x666572], [0x35383031]), ([0x6c6176], [0x393830417830]), ([0x676573], [0x30]), ([0x65707974], [0x62616c])],
  [([0x6469], [0x393533]), ([0x656d616e], [0x2238335f6c6961745f38355f656761705f6b6369745f706f5f22]), ([0x657a697372646461], [0x6574756c6f736261]), ([0x65706f6373], [0x31]), ([0x666564], [0x3432312b3435352b3737352b35383031]), ([0x666572], [0x35383031]), ([0x6c6176], [0x363830417830]), ([0x676573], [0x30]), ([0x65707974], [0x62616c])],
  [([0x6469], [0x303633]), ([0x656d616e], [0x2233345f6c6961745f38355f656761705f6b6369745f706f5f22]), ([0x657a697372646461], [0x6574756c6f736261]), ([0x65706f6373], [0x31]), ([0x666564], [0x3432312b383433312b3737352b35383031]), ([0x666572], [0x35383031]), ([0x6c6176], [0x333830417830]), ([0x676573], [0x30]), ([0x65707974], [0x62616c])],
  [([0x6469], [0x313633]), ([0x656d616e], [0x2237345f6c6961745f38355f656761705f6b6369745f706f5f22]), ([0x657a697372646461], [0x6574756c6f736261]), ([0x65706f6373], [0x31]), ([0x666564], [0x3432312b3637372b3737352b35383031]), ([0x6c6176], [0x303830417830]), ([0x676573], [0x30]), ([0x65707974], [0x62616c])],
  [([0x6469], [0x323633]), ([0x656d616e], [0x2232355f6c6961745f38355f656761705f6b6369745f706f5f22]), ([0x657a697372646461], [0x6574756c6f736261]), ([0x65706f6373], [0x31]), ([0x666564], [0x3432312b3137362b3737352b35383031]), ([0x666572], [0x35383031]), ([0x6c6176], [0x443730417830]), ([0x676573], [0x30]), ([0x65707974], [0x62616c])],
  [([0x6469], [0x333633]), ([0x656d616e], [0x2236355f6c6961745f38355f656761705f6b6369745f706f5f22]), ([0x657a697372646461], [0x6574756c6f736261]), ([0x65706f6373], [0x31]), ([0x666564], [0x3432312b3839342b3737352b35383031]), ([0x666572], [0x35383031]), ([0x6c6176], [0x413730417830]), ([0x676573], [0x30]), ([0x65707974], [0x62616c])],
  [([0x6469], [0x343633]), ([0x656d616e], [0x2230365f6c6961745f38355f656761705f6b6369745f706f5f22]), ([0x657a697372646461], [0x6574756c6f736261]), ([0x65706f6373], [0x31]), ([0x666564], [0x3432312b353632312b3737352b35383031]), ([0x6c6176], [0x373730417830]), ([0x676573], [0x30]), ([0x65707974], [0x62616c])],
  [([0x6469], [0x353633]), ([0x656d616e], [0x2238355f656761705f365f6b6369745f706f22]), ([0x657a697372646461], [0x6574756c6f736261]), ([0x65706f6373], [0x31]), ([0x666564], [0x3432382b3737352b35383031]), ([0x6c6176], [0x453630417830]), ([0x676573], [0x30]), ([0x65707974], [0x62616c])],
  [([0x6469], [0x363633]), ([0x656d616e], [0x22375f6c6961745f38355f656761705f6b6369745f706f5f22]), ([0x657a697372646461], [0x6574756c6f736261]), ([0x65706f6373], [0x31]), ([0x666564], [0x3432312b3330392b3337332b35383031]), ([0x6c6176], [0x383630417830]), ([0x676573], [0x30]), ([0x65707974], [0x62616c])],
  [([0x6469], [0x373633]), ([0x656d616e], [0x2231315f6c6961745f38355f656761705f6b6369745f706f5f22]), ([0x657a697372646461], [0x6574756c6f736261]), ([0x65706f6373], [0x31]), ([0x666564], [0x3432312b333732312b3337332b35383031]), ([0x6c6176], [0x353630417830]), ([0x676573], [0x30]), ([0x65707974], [0x62616c])],
  [([0x6469], [0x383633]), ([0x656d616e], [0x22706d6a5f38355f656761705f345f6b6369745f706f5f22]), ([0x657a697372646461], [0x6574756c6f736261]), ([0x65706f6373], [0x31]), ([0x666564], [0x3134322b3337332b35383031]), ([0x666572], [0x353830312b35383031]), ([0x6c6176], [0x423630417830]), ([0x676573], [0x30]), ([0x65707974], [0x62616c])],
  [([0x6469], [0x393633]), ([0x656d616e], [0x2235315f6c6961745f38355f656761705f6b6369745f706f5f22]), ([0x657a697372646461], [0x6574756c6f736261]), ([0x65706f6373], [0x31]), ([0x666564], [0x3432312b3538352b3337332b35383031]), ([0x666572], [0x35383031]), ([0x6c6176], [0x323630417830]), ([0x676573], [0x30]), ([0x65707974], [0x62616c])],
  [([0x6469], [0x303733]), ([0x656d616e], [0x2239315f6c6961745f38355f656761705f6b6369745f706f5f22]), ([0x657a697372646461], [0x6574756c6f736261]), ([0x65706f6373], [0x31]), ([0x666564], [0x3432312b3737322b3337332b35383031]), ([0x666572], [0x35383031]), ([0x6c6176], [0x463530417830]), ([0x676573], [0x30]), ([0x65707974], [0x62616c])],
  [([0x6469], [0x313733]), ([0x656d616e], [0x2234325f6c6961745f38355f656761705f6b6369745f706f5f22]), ([0x657a697372646461], [0x6574756c6f736261]), ([0x65706f6373], [0x31]), ([0x666564], [0x3432312b3831352b3337332b35383031]), ([0x666572], [0x353830312b35383031]), ([0x6c6176], [0x433530417830]), ([0x676573], [0x30]), ([0x65707974], [0x62616c])],
  [([0x6469], [0x323733]), ([0x656d616e], [0x2238325f6c6961745f38355f656761705f6b6369745f706f5f22]), ([0x657a697372646461], [0x6574756c6f736261]), ([0x65706f6373], [0x31]), ([0x666564], [0x3432312b3436312b3337332b35383031]), ([0x666572], [0x35383031]), ([0x6c6176], [0x393530417830]), ([0x676573], [0x30]), ([0x65707974], [0x62616c])],
  [([0x6469], [0x333733]), ([0x656d616e], [0x2233335f6c6961745f38355f656761705f6b6369745f706f5f22]), ([0x657a697372646461], [0x6574756c6f736261]), ([0x65706f6373], [0x31]), ([0x666564], [0x3432312b3435312b3337332b35383031]), ([0x666572], [0x35383031]), ([0x6c6176], [0x363530417830]), ([0x676573], [0x30]), ([0x65707974], [0x62616c])],
  [([0x6469], [0x343733]), ([0x656d616e], [0x2237335f6c6961745f38355f656761705f6b6369745f706f5f22]), ([0x657a697372646461], [0x6574756c6f736261]), ([0x65706f6373], [0x31]), ([0x666564], [0x3432312b373532312b3337332b35383031]), ([0x666572], [0x35383031]), ([0x6c6176], [0x333530417830]), ([0x676573], [0x30]), ([0x65707974], [0x62616c])],
  [([0x6469], [0x353733]), ([0x656d616e], [0x2232345f6c6961745f38355f656761705f6b6369745f706f5f22]), ([0x657a697372646461], [0x6574756c6f736261]), ([0x65706f6373], [0x31]), ([0x666564], [0x3432312b323033312b3337332b35383031]), ([0x666572], [0x353830312b35383031]), ([0x6c6176], [0x303530417830]), ([0x676573], [0x30]), ([0x65707974], [0x62616c])],
  [([0x6469], [0x363733]), ([0x656d616e], [0x2236345f6c6961745f38355f656761705f6b6369745f706f5f22]), ([0x657a697372646461], [0x6574756c6f736261]), ([0x65706f6373], [0x31]), ([0x666564], [0x3432312b3530382b3337332b35383031]), ([0x666572], [0x35383031]), ([0x6c6176], [0x443430417830]), ([0x676573], [0x30]), ([0x65707974], [0x62616c])],
  [([0x6469], [0x373733]), ([0x656d616e], [0x2231355f6c6961745f38355f656761705f6b6369745f706f5f22]), ([0x657a697372646461], [0x6574756c6f736261]), ([0x65706f6373], [0x31]), ([0x666564], [0x3432312b343231312b3337332b35383031]), ([0x666572], [0x35383031]), ([0x6c6176], [0x413430417830]), ([0x676573], [0x30]), ([0x65707974], [0x62616c])],
  [([0x6469], [0x383733]), ([0x656d616e], [0x2235355f6c6961745f38355f656761705f6b6369745f706f5f22]), ([0x657a697372646461], [0x6574756c6f736261]), ([0x65706f6373], [0x31]), ([0x666564], [0x3432312b3332332b3337332b35383031]), ([0x666572], [0x35383031]), ([0x6c6176], [0x373430417830]), ([0x676573], [0x30]), ([0x65707974], [0x62616c])],
  [([0x6469], [0x393733]), ([0x656d616e], [0x2239355f6c6961745f38355f656761705f6b6369745f706f5f22]), ([0x657a697372646461], [0x6574756c6f736261]), ([0x65706f6373], [0x31]), ([0x666564], [0x3432312b323431312b3337332b35383031]), ([0x6c6176], [0x343430417830]), ([0x676573], [0x30]), ([0x65707974], [0x62616c])],
  [([0x6469], [0x303833]), ([0x656d616e], [0x2238355f656761705f345f6b6369745f706f22]), ([0x657a697372646461], [0x6574756c6f736261]), ([0x65706f6373], [0x31]), ([0x666564], [0x323630312b3337332b35383031]), ([0x6c6176], [0x413330417830]), ([0x676573], [0x30]), ([0x65707974], [0x62616c])],
  [([0x6469], [0x313833]), ([0x656d616e], [0x22444022]), ([0x657a697372646461], [0x6574756c6f736261]), ([0x746e65726170], [0x323833]), ([0x666564], [0x3435322b3833312b31383331]), ([0x666572], [0x313833312b31383331]), ([0x6c6176], [0x373330417830]), ([0x676573], [0x30]), ([0x65707974], [0x62616c])],
  [([0x6469], [0x323833]), ([0x656d616e], [0x2237355f656761705f36365f6b6369745f706f22]), ([0x657a697372646461], [0x6574756c6f736261]), ([0x65706f6373], [0x31]), ([0x666564], [0x3739362b3833312b31383331]), ([0x6c6176], [0x363030417830]), ([0x676573], [0x30]), ([0x65707974], [0x62616c])],
  [([0x6469], [0x333833]), ([0x656d616e], [0x22444022]), ([0x657a697372646461], [0x6574756c6f736261]), ([0x746e65726170], [0x343833]), ([0x666564], [0x3030372b313030312b31383331]), ([0x666572], [0x313833312b31383331]), ([0x6c6176], [0x333030417830]), ([0x676573], [0x30]), ([0x65707974], [0x62616c])]]

/-- player/iivision.dbg, sym lines 384-415 -/
def symLines12 : List (List (List Nat × List Nat)) := [
  [([0x6469], [0x343833]), ([0x656d616e], [0x2237355f656761705f34365f6b6369745f706f22]), ([0x657a697372646461], [0x6574756c6f736261]), ([0x65706f6373], [0x31]), ([0x666564], [0x3937392b313030312b31383331]), ([0x6c6176], [0x324446397830]), ([0x676573], [0x30]), ([0x65707974], [0x62616c])],
  [([0x6469], [0x353833]), ([0x656d616e], [0x22444022]), ([0x657a697372646461], [0x6574756c6f736261]), ([0x746e65726170], [0x363833]), ([0x666564], [0x3033382b3436362b31383331]), ([0x666572], [0x313833312b31383331]), ([0x6c6176], [0x464346397830]), ([0x676573], [0x30]), ([0x65707974], [0x62616c])],
  [([0x6469], [0x363833]), ([0x656d616e], [0x2237355f656761705f32365f6b6369745f706f22]), ([0x657a697372646461], [0x6574756c6f736261]), ([0x65706f6373], [0x31]), ([0x666564], [0x3236322b3436362b31383331]), ([0x6c6176], [0x453946397830]), ([0x676573], [0x30]), ([0x65707974], [0x62616c])],
  [([0x6469], [0x373833]), ([0x656d616e], [0x22444022]), ([0x657a697372646461], [0x6574756c6f736261]), ([0x746e65726170], [0x383833]), ([0x666564], [0x3332382b3937372b31383331]), ([0x666572], [0x313833312b31383331]), ([0x6c6176], [0x423946397830]), ([0x676573], [0x30]), ([0x65707974], [0x62616c])],
  [([0x6469], [0x383833]), ([0x656d616e], [0x2237355f656761705f30365f6b6369745f706f22]), ([0x657a697372646461], [0x6574756c6f736261]), ([0x65706f6373], [0x31]), ([0x666564], [0x3532372b3937372b31383331]), ([0x6c6176], [0x413646397830]), ([0x676573], [0x30]), ([0x65707974], [0x62616c])],
  [([0x6469], [0x393833]), ([0x656d616e], [0x22444022]), ([0x657a697372646461], [0x6574756c6f736261]), ([0x746e65726170], [0x303933]), ([0x666564], [0x383831312b3031352b31383331]), ([0x666572], [0x313833312b31383331]), ([0x6c6176], [0x373646397830]), ([0x676573], [0x30]), ([0x65707974], [0x62616c])],
  [([0x6469], [0x303933]), ([0x656d616e], [0x2237355f656761705f38355f6b6369745f706f22]), ([0x657a697372646461], [0x6574756c6f736261]), ([0x65706f6373], [0x31]), ([0x666564], [0x3638392b3031352b31383331]), ([0x6c6176], [0x363346397830]), ([0x676573], [0x30]), ([0x65707974], [0x62616c])],
  [([0x6469], [0x313933]), ([0x656d616e], [0x22444022]), ([0x657a697372646461], [0x6574756c6f736261]), ([0x746e65726170], [0x323933]), ([0x666564], [0x3130382b3430372b31383331]), ([0x666572], [0x313833312b31383331]), ([0x6c6176], [0x333346397830]), ([0x676573], [0x30]), ([0x65707974], [0x62616c])],
  [([0x6469], [0x323933]), ([0x656d616e], [0x2237355f656761705f36355f6b6369745f706f22]), ([0x657a697372646461], [0x6574756c6f736261]), ([0x65706f6373], [0x31]), ([0x666564], [0x363832312b3430372b31383331]), ([0x6c6176], [0x323046397830]), ([0x676573], [0x30]), ([0x65707974], [0x62616c])],
  [([0x6469], [0x333933]), ([0x656d616e], [0x22444022]), ([0x657a697372646461], [0x6574756c6f736261]), ([0x746e65726170], [0x343933]), ([0x666564], [0x323230312b3132362b31383331]), ([0x666572], [0x313833312b31383331]), ([0x6c6176], [0x464645397830]), ([0x676573], [0x30]), ([0x65707974], [0x62616c])],
  [([0x6469], [0x343933]), ([0x656d616e], [0x2237355f656761705f34355f6b6369745f706f22]), ([0x657a697372646461], [0x6574756c6f736261]), ([0x65706f6373], [0x31]), ([0x666564], [0x313032312b3132362b31383331]), ([0x6c6176], [0x454345397830]), ([0x676573], [0x30]), ([0x65707974], [0x62616c])],
  [([0x6469], [0x353933]), ([0x656d616e], [0x2237355f656761705f32355f6b6369745f706f22]), ([0x657a697372646461], [0x6574756c6f736261]), ([0x65706f6373], [0x31]), ([0x666564], [0x3335312b3438382b31383331]), ([0x6c6176], [0x334145397830]), ([0x676573], [0x30]), ([0x65707974], [0x62616c])],
  [([0x6469], [0x363933]), ([0x656d616e], [0x2237355f656761705f30355f6b6369745f706f22]), ([0x657a697372646461], [0x6574756c6f736261]), ([0x65706f6373], [0x31]), ([0x666564], [0x3236392b3431312b31383331]), ([0x6c6176], [0x423745397830]), ([0x676573], [0x30]), ([0x65707974], [0x62616c])],
  [([0x6469], [0x373933]), ([0x656d616e], [0x2237355f656761705f38345f6b6369745f706f22]), ([0x657a697372646461], [0x6574756c6f736261]), ([0x65706f6373], [0x31]), ([0x666564], [0x3933342b363230312b31383331]), ([0x6c6176], [0x323545397830]), ([0x676573], [0x30]), ([0x65707974], [0x62616c])],
  [([0x6469], [0x383933]), ([0x656d616e], [0x2237355f656761705f36345f6b6369745f706f22]), ([0x657a697372646461], [0x6574756c6f736261]), ([0x65706f6373], [0x31]), ([0x666564], [0x343430312b3734362b31383331]), ([0x6c6176], [0x443245397830]), ([0x676573], [0x30]), ([0x65707974], [0x62616c])],
  [([0x6469], [0x393933]), ([0x656d616e], [0x2237355f656761705f34345f6b6369745f706f22]), ([0x657a697372646461], [0x6574756c6f736261]), ([0x65706f6373], [0x31]), ([0x666564], [0x3634352b3836322b31383331]), ([0x6c6176], [0x373045397830]), ([0x676573], [0x30]), ([0x65707974], [0x62616c])],
  [([0x6469], [0x303034]), ([0x656d616e], [0x2237355f656761705f32345f6b6369745f706f22]), ([0x657a697372646461], [0x6574756c6f736261]), ([0x65706f6373], [0x31]), ([0x666564], [0x37362b32362b31383331]), ([0x6c6176], [0x344544397830]), ([0x676573], [0x30]), ([0x65707974], [0x62616c])],
  [([0x6469], [0x313034]), ([0x656d616e], [0x2237355f656761705f30345f6b6369745f706f22]), ([0x657a697372646461], [0x6574756c6f736261]), ([0x65706f6373], [0x31]), ([0x666564], [0x323232312b343131312b31383331]), ([0x6c6176], [0x314344397830]), ([0x676573], [0x30]), ([0x65707974], [0x62616c])],
  [([0x6469], [0x323034]), ([0x656d616e], [0x2237355f656761705f38335f6b6369745f706f22]), ([0x657a697372646461], [0x6574756c6f736261]), ([0x65706f6373], [0x31]), ([0x666564], [0x353633312b3930362b31383331]), ([0x6c6176], [0x314144397830]), ([0x676573], [0x30]), ([0x65707974], [0x62616c])],
  [([0x6469], [0x333034]), ([0x656d616e], [0x22444022]), ([0x657a697372646461], [0x6574756c6f736261]), ([0x746e65726170], [0x343034]), ([0x666564], [0x333932312b363332312b31383331]), ([0x666572], [0x313833312b31383331]), ([0x6c6176], [0x453944397830]), ([0x676573], [0x30]), ([0x65707974], [0x62616c])],
  [([0x6469], [0x343034]), ([0x656d616e], [0x2237355f656761705f36335f6b6369745f706f22]), ([0x657a697372646461], [0x6574756c6f736261]), ([0x65706f6373], [0x31]), ([0x666564], [0x3036382b363332312b31383331]), ([0x6c6176], [0x443644397830]), ([0x676573], [0x30]), ([0x65707974], [0x62616c])],
  [([0x6469], [0x353034]), ([0x656d616e], [0x2237355f656761705f34335f6b6369745f706f22]), ([0x657a697372646461], [0x6574756c6f736261]), ([0x65706f6373], [0x31]), ([0x666564], [0x343030312b363330312b31383331]), ([0x6c6176], [0x373444397830]), ([0x676573], [0x30]), ([0x65707974], [0x62616c])],
  [([0x6469], [0x363034]), ([0x656d616e], [0x2237355f656761705f32335f6b6369745f706f22]), ([0x657a697372646461], [0x6574756c6f736261]), ([0x65706f6373], [0x31]), ([0x666564], [0x3234362b393230312b31383331]), ([0x6c6176], [0x423244397830]), ([0x676573], [0x30]), ([0x65707974], [0x62616c])],
  [([0x6469], [0x373034]), ([0x656d616e], [0x2237355f656761705f30335f6b6369745f706f22]), ([0x657a697372646461], [0x6574756c6f736261]), ([0x65706f6373], [0x31]), ([0x666564], [0x373330312b373130312b31383331]), ([0x6c6176], [0x453044397830]), ([0x676573], [0x30]), ([0x65707974], [0x62616c])],
  [([0x6469], [0x383034]), ([0x656d616e], [0x2237355f656761705f38325f6b6369745f706f22]), ([0x657a697372646461], [0x6574756c6f736261]), ([0x65706f6373], [0x31]), ([0x666564], [0x3231322b3637312b31383331]), ([0x6c6176], [0x354643397830]), ([0x676573], [0x30]), ([0x65707974], [0x62616c])],
  [([0x6469], [0x393034]), ([0x656d616e], [0x2237355f656761705f36325f6b6369745f706f22]), ([0x657a697372646461], [0x6574756c6f736261]), ([0x65706f6373], [0x31]), ([0x666564], [0x3038352b3831322b31383331]), ([0x6c6176], [0x424443397830]), ([0x676573], [0x30]), ([0x65707974], [0x62616c])],
  [([0x6469], [0x303134]), ([0x656d616e], [0x2237355f656761705f34325f6b6369745f706f22]), ([0x657a697372646461], [0x6574756c6f736261]), ([0x65706f6373], [0x31]), ([0x666564], [0x3837362b333232312b31383331]), ([0x6c6176], [0x344343397830]), ([0x676573], [0x30]), ([0x65707974], [0x62616c])],
  [([0x6469], [0x313134]), ([0x656d616e], [0x2237355f656761705f32325f6b6369745f706f22]), ([0x657a697372646461], [0x6574756c6f736261]), ([0x65706f6373], [0x31]), ([0x666564], [0x323931312b373033312b31383331]), ([0x6c6176], [0x444143397830]), ([0x676573], [0x30]), ([0x65707974], [0x62616c])],
  [([0x6469], [0x323134]), ([0x656d616e], [0x2237355f656761705f30325f6b6369745f706f22]), ([0x657a697372646461], [0x6574756c6f736261]), ([0x65706f6373], [0x31]), ([0x666564], [0x32332b373732312b31383331]), ([0x6c6176], [0x393943397830]), ([0x676573], [0x30]), ([0x65707974], [0x62616c])],
  [([0x6469], [0x333134]), ([0x656d616e], [0x22444022]), ([0x657a697372646461], [0x6574756c6f736261]), ([0x746e65726170], [0x343134]), ([0x666564], [0x3430352b38392b31383331]), ([0x666572], [0x313833312b31383331]), ([0x6c6176], [0x363943397830]), ([0x676573], [0x30]), ([0x65707974], [0x62616c])],
  [([0x6469], [0x343134]), ([0x656d616e], [0x2237355f656761705f38315f6b6369745f706f22]), ([0x657a697372646461], [0x6574756c6f736261]), ([0x65706f6373], [0x31]), ([0x666564], [0x323032312b38392b31383331]), ([0x6c6176], [0x353643397830]), ([0x676573], [0x30]), ([0x65707974], [0x62616c])],
  [([0x6469], [0x353134]), ([0x656d616e], [0x2237355f656761705f36315f6b6369745f706f22]), ([0x657a697372646461], [0x6574756c6f736261]), ([0x65706f6373], [0x31]), ([0x666564], [0x3032382b3332392b31383331]), ([0x6c6176], [0x453443397830]), ([0x676573], [0x30]), ([0x65707974], [0x62616c])]]

/-- player/iivision.dbg, sym lines 416-447 -/
def symLines13 : List (List (List Nat × List Nat)) := [
  [([0x6469], [0x363134]), ([0x656d616e], [0x2237355f656761705f34315f6b6369745f706f22]), ([0x657a697372646461], [0x6574756c6f736261]), ([0x65706f6373], [0x31]), ([0x666564], [0x33312b3430332b31383331]), ([0x6c6176], [0x453343397830]), ([0x676573], [0x30]), ([0x65707974], [0x62616c])],
  [([0x6469], [0x373134]), ([0x656d616e], [0x2237355f656761705f32315f6b6369745f706f22]), ([0x657a697372646461], [0x6574756c6f736261]), ([0x65706f6373], [0x31]), ([0x666564], [0x3736372b383431312b31383331]), ([0x6c6176], [0x443243397830]), ([0x676573], [0x30]), ([0x65707974], [0x62616c])],
  [([0x6469], [0x383134]), ([0x656d616e], [0x2237355f656761705f30315f6b6369745f706f22]), ([0x657a697372646461], [0x6574756c6f736261]), ([0x65706f6373], [0x31]), ([0x666564], [0x3334392b3334372b31383331]), ([0x6c6176], [0x303243397830]), ([0x676573], [0x30]), ([0x65707974], [0x62616c])],
  [([0x6469], [0x393134]), ([0x656d616e], [0x2237355f656761705f385f6b6369745f706f22]), ([0x657a697372646461], [0x6574756c6f736261]), ([0x65706f6373], [0x31]), ([0x666564], [0x3132382b3037332b31383331]), ([0x6c6176], [0x323143397830]), ([0x676573], [0x30]), ([0x65707974], [0x62616c])],
  [([0x6469], [0x303234]), ([0x656d616e], [0x22385f6c6961745f37355f656761705f6b6369745f706f5f22]), ([0x657a697372646461], [0x6574756c6f736261]), ([0x65706f6373], [0x31]), ([0x666564], [0x3432312b3033362b3737352b31383331]), ([0x6c6176], [0x433043397830]), ([0x676573], [0x30]), ([0x65707974], [0x62616c])],
  [([0x6469], [0x313234]), ([0x656d616e], [0x2232315f6c6961745f37355f656761705f6b6369745f706f5f22]), ([0x657a697372646461], [0x6574756c6f736261]), ([0x65706f6373], [0x31]), ([0x666564], [0x3432312b383430312b3737352b31383331]), ([0x666572], [0x31383331]), ([0x6c6176], [0x393043397830]), ([0x676573], [0x30]), ([0x65707974], [0x62616c])],
  [([0x6469], [0x323234]), ([0x656d616e], [0x22706d6a5f37355f656761705f365f6b6369745f706f5f22]), ([0x657a697372646461], [0x6574756c6f736261]), ([0x65706f6373], [0x31]), ([0x666564], [0x3735372b3737352b31383331]), ([0x666572], [0x313833312b313833312b31383331]), ([0x6c6176], [0x463043397830]), ([0x676573], [0x30]), ([0x65707974], [0x62616c])],
  [([0x6469], [0x333234]), ([0x656d616e], [0x2236315f6c6961745f37355f656761705f6b6369745f706f5f22]), ([0x657a697372646461], [0x6574756c6f736261]), ([0x65706f6373], [0x31]), ([0x666564], [0x3432312b3837312b3737352b31383331]), ([0x666572], [0x31383331]), ([0x6c6176], [0x363043397830]), ([0x676573], [0x30]), ([0x65707974], [0x62616c])],
  [([0x6469], [0x343234]), ([0x656d616e], [0x2230325f6c6961745f37355f656761705f6b6369745f706f5f22]), ([0x657a697372646461], [0x6574756c6f736261]), ([0x65706f6373], [0x31]), ([0x666564], [0x3432312b3238362b3737352b31383331]), ([0x666572], [0x313833312b31383331]), ([0x6c6176], [0x333043397830]), ([0x676573], [0x30]), ([0x65707974], [0x62616c])],
  [([0x6469], [0x353234]), ([0x656d616e], [0x2235325f6c6961745f37355f656761705f6b6369745f706f5f22]), ([0x657a697372646461], [0x6574756c6f736261]), ([0x65706f6373], [0x31]), ([0x666564], [0x3432312b353431312b3737352b31383331]), ([0x6c6176], [0x303043397830]), ([0x676573], [0x30]), ([0x65707974], [0x62616c])],
  [([0x6469], [0x363234]), ([0x656d616e], [0x2239325f6c6961745f37355f656761705f6b6369745f706f5f22]), ([0x657a697372646461], [0x6574756c6f736261]), ([0x65706f6373], [0x31]), ([0x666564], [0x3432312b343632312b3737352b31383331]), ([0x6c6176], [0x444642397830]), ([0x676573], [0x30]), ([0x65707974], [0x62616c])],
  [([0x6469], [0x373234]), ([0x656d616e], [0x2234335f6c6961745f37355f656761705f6b6369745f706f5f22]), ([0x657a697372646461], [0x6574756c6f736261]), ([0x65706f6373], [0x31]), ([0x666564], [0x3432312b3538342b3737352b31383331]), ([0x666572], [0x31383331]), ([0x6c6176], [0x414642397830]), ([0x676573], [0x30]), ([0x65707974], [0x62616c])],
  [([0x6469], [0x383234]), ([0x656d616e], [0x2238335f6c6961745f37355f656761705f6b6369745f706f5f22]), ([0x657a697372646461], [0x6574756c6f736261]), ([0x65706f6373], [0x31]), ([0x666564], [0x3432312b3435352b3737352b31383331]), ([0x666572], [0x31383331]), ([0x6c6176], [0x374642397830]), ([0x676573], [0x30]), ([0x65707974], [0x62616c])],
  [([0x6469], [0x393234]), ([0x656d616e], [0x2233345f6c6961745f37355f656761705f6b6369745f706f5f22]), ([0x657a697372646461], [0x6574756c6f736261]), ([0x65706f6373], [0x31]), ([0x666564], [0x3432312b383433312b3737352b31383331]), ([0x666572], [0x31383331]), ([0x6c6176], [0x344642397830]), ([0x676573], [0x30]), ([0x65707974], [0x62616c])],
  [([0x6469], [0x303334]), ([0x656d616e], [0x2237345f6c6961745f37355f656761705f6b6369745f706f5f22]), ([0x657a697372646461], [0x6574756c6f736261]), ([0x65706f6373], [0x31]), ([0x666564], [0x3432312b3637372b3737352b31383331]), ([0x6c6176], [0x314642397830]), ([0x676573], [0x30]), ([0x65707974], [0x62616c])],
  [([0x6469], [0x313334]), ([0x656d616e], [0x2232355f6c6961745f37355f656761705f6b6369745f706f5f22]), ([0x657a697372646461], [0x6574756c6f736261]), ([0x65706f6373], [0x31]), ([0x666564], [0x3432312b3137362b3737352b31383331]), ([0x666572], [0x31383331]), ([0x6c6176], [0x454542397830]), ([0x676573], [0x30]), ([0x65707974], [0x62616c])],
  [([0x6469], [0x323334]), ([0x656d616e], [0x2236355f6c6961745f37355f656761705f6b6369745f706f5f22]), ([0x657a697372646461], [0x6574756c6f736261]), ([0x65706f6373], [0x31]), ([0x666564], [0x3432312b3839342b3737352b31383331]), ([0x666572], [0x31383331]), ([0x6c6176], [0x424542397830]), ([0x676573], [0x30]), ([0x65707974], [0x62616c])],
  [([0x6469], [0x333334]), ([0x656d616e], [0x2230365f6c6961745f37355f656761705f6b6369745f706f5f22]), ([0x657a697372646461], [0x6574756c6f736261]), ([0x65706f6373], [0x31]), ([0x666564], [0x3432312b353632312b3737352b31383331]), ([0x6c6176], [0x384542397830]), ([0x676573], [0x30]), ([0x65707974], [0x62616c])],
  [([0x6469], [0x343334]), ([0x656d616e], [0x2237355f656761705f365f6b6369745f706f22]), ([0x657a697372646461], [0x6574756c6f736261]), ([0x65706f6373], [0x31]), ([0x666564], [0x3432382b3737352b31383331]), ([0x6c6176], [0x464442397830]), ([0x676573], [0x30]), ([0x65707974], [0x62616c])],
  [([0x6469], [0x353334]), ([0x656d616e], [0x22375f6c6961745f37355f656761705f6b6369745f706f5f22]), ([0x657a697372646461], [0x6574756c6f736261]), ([0x65706f6373], [0x31]), ([0x666564], [0x3432312b3330392b3337332b31383331]), ([0x6c6176], [0x394442397830]), ([0x676573], [0x30]), ([0x65707974], [0x62616c])],
  [([0x6469], [0x363334]), ([0x656d616e], [0x2231315f6c6961745f37355f656761705f6b6369745f706f5f22]), ([0x657a697372646461], [0x6574756c6f736261]), ([0x65706f6373], [0x31]), ([0x666564], [0x3432312b333732312b3337332b31383331]), ([0x6c6176], [0x364442397830]), ([0x676573], [0x30]), ([0x65707974], [0x62616c])],
  [([0x6469], [0x373334]), ([0x656d616e], [0x22706d6a5f37355f656761705f345f6b6369745f706f5f22]), ([0x657a697372646461], [0x6574756c6f736261]), ([0x65706f6373], [0x31]), ([0x666564], [0x3134322b3337332b31383331]), ([0x666572], [0x313833312b31383331]), ([0x6c6176], [0x434442397830]), ([0x676573], [0x30]), ([0x65707974], [0x62616c])],
  [([0x6469], [0x383334]), ([0x656d616e], [0x2235315f6c6961745f37355f656761705f6b6369745f706f5f22]), ([0x657a697372646461], [0x6574756c6f736261]), ([0x65706f6373], [0x31]), ([0x666564], [0x3432312b3538352b3337332b31383331]), ([0x666572], [0x31383331]), ([0x6c6176], [0x334442397830]), ([0x676573], [0x30]), ([0x65707974], [0x62616c])],
  [([0x6469], [0x393334]), ([0x656d616e], [0x2239315f6c6961745f37355f656761705f6b6369745f706f5f22]), ([0x657a697372646461], [0x6574756c6f736261]), ([0x65706f6373], [0x31]), ([0x666564], [0x3432312b3737322b3337332b31383331]), ([0x666572], [0x31383331]), ([0x6c6176], [0x304442397830]), ([0x676573], [0x30]), ([0x65707974], [0x62616c])],
  [([0x6469], [0x303434]), ([0x656d616e], [0x2234325f6c6961745f37355f656761705f6b6369745f706f5f22]), ([0x657a697372646461], [0x6574756c6f736261]), ([0x65706f6373], [0x31]), ([0x666564], [0x3432312b3831352b3337332b31383331]), ([0x666572], [0x313833312b31383331]), ([0x6c6176], [0x444342397830]), ([0x676573], [0x30]), ([0x65707974], [0x62616c])],
  [([0x6469], [0x313434]), ([0x656d616e], [0x2238325f6c6961745f37355f656761705f6b6369745f706f5f22]), ([0x657a697372646461], [0x6574756c6f736261]), ([0x65706f6373], [0x31]), ([0x666564], [0x3432312b3436312b3337332b31383331]), ([0x666572], [0x31383331]), ([0x6c6176], [0x414342397830]), ([0x676573], [0x30]), ([0x65707974], [0x62616c])],
  [([0x6469], [0x323434]), ([0x656d616e], [0x2233335f6c6961745f37355f656761705f6b6369745f706f5f22]), ([0x657a697372646461], [0x6574756c6f736261]), ([0x65706f6373], [0x31]), ([0x666564], [0x3432312b3435312b3337332b31383331]), ([0x666572], [0x31383331]), ([0x6c6176], [0x374342397830]), ([0x676573], [0x30]), ([0x65707974], [0x62616c])],
  [([0x6469], [0x333434]), ([0x656d616e], [0x2237335f6c6961745f37355f656761705f6b6369745f706f5f22]), ([0x657a697372646461], [0x6574756c6f736261]), ([0x65706f6373], [0x31]), ([0x666564], [0x3432312b373532312b3337332b31383331]), ([0x666572], [0x31383331]), ([0x6c6176], [0x344342397830]), ([0x676573], [0x30]), ([0x65707974], [0x62616c])],
  [([0x6469], [0x343434]), ([0x656d616e], [0x2232345f6c6961745f37355f656761705f6b6369745f706f5f22]), ([0x657a697372646461], [0x6574756c6f736261]), ([0x65706f6373], [0x31]), ([0x666564], [0x3432312b323033312b3337332b31383331]), ([0x666572], [0x313833312b31383331]), ([0x6c6176], [0x314342397830]), ([0x676573], [0x30]), ([0x65707974], [0x62616c])],
  [([0x6469], [0x353434]), ([0x656d616e], [0x2236345f6c6961745f37355f656761705f6b6369745f706f5f22]), ([0x657a697372646461], [0x6574756c6f736261]), ([0x65706f6373], [0x31]), ([0x666564], [0x3432312b3530382b3337332b31383331]), ([0x666572], [0x31383331]), ([0x6c6176], [0x454242397830]), ([0x676573], [0x30]), ([0x65707974], [0x62616c])],
  [([0x6469], [0x363434]), ([0x656d616e], [0x2231355f6c6961745f37355f656761705f6b6369745f706f5f22]), ([0x657a697372646461], [0x6574756c6f736261]), ([0x65706f6373], [0x31]), ([0x666564], [0x3432312b343231312b3337332b31383331]), ([0x666572], [0x31383331]), ([0x6c6176], [0x424242397830]), ([0x676573], [0x30]), ([0x65707974], [0x62616c])],
  [([0x6469], [0x373434]), ([0x656d616e], [0x2235355f6c6961745f37355f656761705f6b6369745f706f5f22]), ([0x657a697372646461], [0x6574756c6f736261]), ([0x65706f6373], [0x31]), ([0x666564], [0x3432312b3332332b3337332b31383331]), ([0x666572], [0x31383331]), ([0x6c6176], [0x384242397830]), ([0x676573], [0x30]), ([0x65707974], [0x62616c])]]

/-- player/iivision.dbg, sym lines 448-479 -/
def symLines14 : List (List (List Nat × List Nat)) := [
  [([0x6469], [0x383434]), ([0x656d616e], [0x2239355f6c6961745f37355f656761705f6b6369745f706f5f22]), ([0x657a697372646461], [0x6574756c6f736261]), ([0x65706f6373], [0x31]), ([0x666564], [0x3432312b323431312b3337332b31383331]), ([0x6c6176], [0x354242397830]), ([0x676573], [0x30]), ([0x65707974], [0x62616c])],
  [([0x6469], [0x393434]), ([0x656d616e], [0x2237355f656761705f345f6b6369745f706f22]), ([0x657a697372646461], [0x6574756c6f736261]), ([0x65706f6373], [0x31]), ([0x666564], [0x323630312b3337332b31383331]), ([0x6c6176], [0x424142397830]), ([0x676573], [0x30]), ([0x65707974], [0x62616c])],
  [([0x6469], [0x303534]), ([0x656d616e], [0x22444022]), ([0x657a697372646461], [0x6574756c6f736261]), ([0x746e65726170], [0x313534]), ([0x666564], [0x3435322b3833312b373539]), ([0x666572], [0x3735392b373539]), ([0x6c6176], [0x384142397830]), ([0x676573], [0x30]), ([0x65707974], [0x62616c])],
  [([0x6469], [0x313534]), ([0x656d616e], [0x2236355f656761705f36365f6b6369745f706f22]), ([0x657a697372646461], [0x6574756c6f736261]), ([0x65706f6373], [0x31]), ([0x666564], [0x3739362b3833312b373539]), ([0x6c6176], [0x373742397830]), ([0x676573], [0x30]), ([0x65707974], [0x62616c])],
  [([0x6469], [0x323534]), ([0x656d616e], [0x22444022]), ([0x657a697372646461], [0x6574756c6f736261]), ([0x746e65726170], [0x333534]), ([0x666564], [0x3030372b313030312b373539]), ([0x666572], [0x3735392b373539]), ([0x6c6176], [0x343742397830]), ([0x676573], [0x30]), ([0x65707974], [0x62616c])],
  [([0x6469], [0x333534]), ([0x656d616e], [0x2236355f656761705f34365f6b6369745f706f22]), ([0x657a697372646461], [0x6574756c6f736261]), ([0x65706f6373], [0x31]), ([0x666564], [0x3937392b313030312b373539]), ([0x6c6176], [0x333442397830]), ([0x676573], [0x30]), ([0x65707974], [0x62616c])],
  [([0x6469], [0x343534]), ([0x656d616e], [0x22444022]), ([0x657a697372646461], [0x6574756c6f736261]), ([0x746e65726170], [0x353534]), ([0x666564], [0x3033382b3436362b373539]), ([0x666572], [0x3735392b373539]), ([0x6c6176], [0x303442397830]), ([0x676573], [0x30]), ([0x65707974], [0x62616c])],
  [([0x6469], [0x353534]), ([0x656d616e], [0x2236355f656761705f32365f6b6369745f706f22]), ([0x657a697372646461], [0x6574756c6f736261]), ([0x65706f6373], [0x31]), ([0x666564], [0x3236322b3436362b373539]), ([0x6c6176], [0x463042397830]), ([0x676573], [0x30]), ([0x65707974], [0x62616c])],
  [([0x6469], [0x363534]), ([0x656d616e], [0x22444022]), ([0x657a697372646461], [0x6574756c6f736261]), ([0x746e65726170], [0x373534]), ([0x666564], [0x3332382b3937372b373539]), ([0x666572], [0x3735392b373539]), ([0x6c6176], [0x433042397830]), ([0x676573], [0x30]), ([0x65707974], [0x62616c])],
  [([0x6469], [0x373534]), ([0x656d616e], [0x2236355f656761705f30365f6b6369745f706f22]), ([0x657a697372646461], [0x6574756c6f736261]), ([0x65706f6373], [0x31]), ([0x666564], [0x3532372b3937372b373539]), ([0x6c6176], [0x424441397830]), ([0x676573], [0x30]), ([0x65707974], [0x62616c])],
  [([0x6469], [0x383534]), ([0x656d616e], [0x22444022]), ([0x657a697372646461], [0x6574756c6f736261]), ([0x746e65726170], [0x393534]), ([0x666564], [0x383831312b3031352b373539]), ([0x666572], [0x3735392b373539]), ([0x6c6176], [0x384441397830]), ([0x676573], [0x30]), ([0x65707974], [0x62616c])],
  [([0x6469], [0x393534]), ([0x656d616e], [0x2236355f656761705f38355f6b6369745f706f22]), ([0x657a697372646461], [0x6574756c6f736261]), ([0x65706f6373], [0x31]), ([0x666564], [0x3638392b3031352b373539]), ([0x6c6176], [0x374141397830]), ([0x676573], [0x30]), ([0x65707974], [0x62616c])],
  [([0x6469], [0x303634]), ([0x656d616e], [0x22444022]), ([0x657a697372646461], [0x6574756c6f736261]), ([0x746e65726170], [0x313634]), ([0x666564], [0x3130382b3430372b373539]), ([0x666572], [0x3735392b373539]), ([0x6c6176], [0x344141397830]), ([0x676573], [0x30]), ([0x65707974], [0x62616c])],
  [([0x6469], [0x313634]), ([0x656d616e], [0x2236355f656761705f36355f6b6369745f706f22]), ([0x657a697372646461], [0x6574756c6f736261]), ([0x65706f6373], [0x31]), ([0x666564], [0x363832312b3430372b373539]), ([0x6c6176], [0x333741397830]), ([0x676573], [0x30]), ([0x65707974], [0x62616c])],
  [([0x6469], [0x323634]), ([0x656d616e], [0x22444022]), ([0x657a697372646461], [0x6574756c6f736261]), ([0x746e65726170], [0x333634]), ([0x666564], [0x323230312b3132362b373539]), ([0x666572], [0x3735392b373539]), ([0x6c6176], [0x303741397830]), ([0x676573], [0x30]), ([0x65707974], [0x62616c])],
  [([0x6469], [0x333634]), ([0x656d616e], [0x2236355f656761705f34355f6b6369745f706f22]), ([0x657a697372646461], [0x6574756c6f736261]), ([0x65706f6373], [0x31]), ([0x666564], [0x313032312b3132362b373539]), ([0x6c6176], [0x463341397830]), ([0x676573], [0x30]), ([0x65707974], [0x62616c])],
  [([0x6469], [0x343634]), ([0x656d616e], [0x2236355f656761705f32355f6b6369745f706f22]), ([0x657a697372646461], [0x6574756c6f736261]), ([0x65706f6373], [0x31]), ([0x666564], [0x3335312b3438382b373539]), ([0x6c6176], [0x343141397830]), ([0x676573], [0x30]), ([0x65707974], [0x62616c])],
  [([0x6469], [0x353634]), ([0x656d616e], [0x2236355f656761705f30355f6b6369745f706f22]), ([0x657a697372646461], [0x6574756c6f736261]), ([0x65706f6373], [0x31]), ([0x666564], [0x3236392b3431312b373539]), ([0x6c6176], [0x434539397830]), ([0x676573], [0x30]), ([0x65707974], [0x62616c])],
  [([0x6469], [0x363634]), ([0x656d616e], [0x2236355f656761705f38345f6b6369745f706f22]), ([0x657a697372646461], [0x6574756c6f736261]), ([0x65706f6373], [0x31]), ([0x666564], [0x3933342b363230312b373539]), ([0x6c6176], [0x334339397830]), ([0x676573], [0x30]), ([0x65707974], [0x62616c])],
  [([0x6469], [0x373634]), ([0x656d616e], [0x2236355f656761705f36345f6b6369745f706f22]), ([0x657a697372646461], [0x6574756c6f736261]), ([0x65706f6373], [0x31]), ([0x666564], [0x343430312b3734362b373539]), ([0x6c6176], [0x453939397830]), ([0x676573], [0x30]), ([0x65707974], [0x62616c])],
  [([0x6469], [0x383634]), ([0x656d616e], [0x2236355f656761705f34345f6b6369745f706f22]), ([0x657a697372646461], [0x6574756c6f736261]), ([0x65706f6373], [0x31]), ([0x666564], [0x3634352b3836322b373539]), ([0x6c6176], [0x383739397830]), ([0x676573], [0x30]), ([0x65707974], [0x62616c])],
  [([0x6469], [0x393634]), ([0x656d616e], [0x2236355f656761705f32345f6b6369745f706f22]), ([0x657a697372646461], [0x6574756c6f736261]), ([0x65706f6373], [0x31]), ([0x666564], [0x37362b32362b373539]), ([0x6c6176], [0x353539397830]), ([0x676573], [0x30]), ([0x65707974], [0x62616c])],
  [([0x6469], [0x303734]), ([0x656d616e], [0x2236355f656761705f30345f6b6369745f706f22]), ([0x657a697372646461], [0x6574756c6f736261]), ([0x65706f6373], [0x31]), ([0x666564], [0x323232312b343131312b373539]), ([0x6c6176], [0x323339397830]), ([0x676573], [0x30]), ([0x65707974], [0x62616c])],
  [([0x6469], [0x313734]), ([0x656d616e], [0x2236355f656761705f38335f6b6369745f706f22]), ([0x657a697372646461], [0x6574756c6f736261]), ([0x65706f6373], [0x31]), ([0x666564], [0x353633312b3930362b373539]), ([0x6c6176], [0x323139397830]), ([0x676573], [0x30]), ([0x65707974], [0x62616c])],
  [([0x6469], [0x323734]), ([0x656d616e], [0x22444022]), ([0x657a697372646461], [0x6574756c6f736261]), ([0x746e65726170], [0x333734]), ([0x666564], [0x333932312b363332312b373539]), ([0x666572], [0x3735392b373539]), ([0x6c6176], [0x463039397830]), ([0x676573], [0x30]), ([0x65707974], [0x62616c])],
  [([0x6469], [0x333734]), ([0x656d616e], [0x2236355f656761705f36335f6b6369745f706f22]), ([0x657a697372646461], [0x6574756c6f736261]), ([0x65706f6373], [0x31]), ([0x666564], [0x3036382b363332312b373539]), ([0x6c6176], [0x454438397830]), ([0x676573], [0x30]), ([0x65707974], [0x62616c])],
  [([0x6469], [0x343734]), ([0x656d616e], [0x2236355f656761705f34335f6b6369745f706f22]), ([0x657a697372646461], [0x6574756c6f736261]), ([0x65706f6373], [0x31]), ([0x666564], [0x343030312b363330312b373539]), ([0x6c6176], [0x384238397830]), ([0x676573], [0x30]), ([0x65707974], [0x62616c])],
  [([0x6469], [0x353734]), ([0x656d616e], [0x2236355f656761705f32335f6b6369745f706f22]), ([0x657a697372646461], [0x6574756c6f736261]), ([0x65706f6373], [0x31]), ([0x666564], [0x3234362b393230312b373539]), ([0x6c6176], [0x433938397830]), ([0x676573], [0x30]), ([0x65707974], [0x62616c])],
  [([0x6469], [0x363734]), ([0x656d616e], [0x2236355f656761705f30335f6b6369745f706f22]), ([0x657a697372646461], [0x6574756c6f736261]), ([0x65706f6373], [0x31]), ([0x666564], [0x373330312b373130312b373539]), ([0x6c6176], [0x463738397830]), ([0x676573], [0x30]), ([0x65707974], [0x62616c])],
  [([0x6469], [0x373734]), ([0x656d616e], [0x2236355f656761705f38325f6b6369745f706f22]), ([0x657a697372646461], [0x6574756c6f736261]), ([0x65706f6373], [0x31]), ([0x666564], [0x3231322b3637312b373539]), ([0x6c6176], [0x363638397830]), ([0x676573], [0x30]), ([0x65707974], [0x62616c])],
  [([0x6469], [0x383734]), ([0x656d616e], [0x2236355f656761705f36325f6b6369745f706f22]), ([0x657a697372646461], [0x6574756c6f736261]), ([0x65706f6373], [0x31]), ([0x666564], [0x3038352b3831322b373539]), ([0x6c6176], [0x433438397830]), ([0x676573], [0x30]), ([0x65707974], [0x62616c])],
  [([0x6469], [0x393734]), ([0x656d616e], [0x2236355f656761705f34325f6b6369745f706f22]), ([0x657a697372646461], [0x6574756c6f736261]), ([0x65706f6373], [0x31]), ([0x666564], [0x3837362b333232312b373539]), ([0x6c6176], [0x353338397830]), ([0x676573], [0x30]), ([0x65707974], [0x62616c])]]

/-- player/iivision.dbg, sym lines 480-511 -/
def symLines15 : List (List (List Nat × List Nat)) := [
  [([0x6469], [0x303834]), ([0x656d616e], [0x2236355f656761705f32325f6b6369745f706f22]), ([0x657a697372646461], [0x6574756c6f736261]), ([0x65706f6373], [0x31]), ([0x666564], [0x323931312b373033312b373539]), ([0x6c6176], [0x453138397830]), ([0x676573], [0x30]), ([0x65707974], [0x62616c])],
  [([0x6469], [0x313834]), ([0x656d616e], [0x2236355f656761705f30325f6b6369745f706f22]), ([0x657a697372646461], [0x6574756c6f736261]), ([0x65706f6373], [0x31]), ([0x666564], [0x32332b373732312b373539]), ([0x6c6176], [0x413038397830]), ([0x676573], [0x30]), ([0x65707974], [0x62616c])],
  [([0x6469], [0x323834]), ([0x656d616e], [0x22444022]), ([0x657a697372646461], [0x6574756c6f736261]), ([0x746e65726170], [0x333834]), ([0x666564], [0x3430352b38392b373539]), ([0x666572], [0x3735392b373539]), ([0x6c6176], [0x373038397830]), ([0x676573], [0x30]), ([0x65707974], [0x62616c])],
  [([0x6469], [0x333834]), ([0x656d616e], [0x2236355f656761705f38315f6b6369745f706f22]), ([0x657a697372646461], [0x6574756c6f736261]), ([0x65706f6373], [0x31]), ([0x666564], [0x323032312b38392b373539]), ([0x6c6176], [0x364437397830]), ([0x676573], [0x30]), ([0x65707974], [0x62616c])],
  [([0x6469], [0x343834]), ([0x656d616e], [0x2236355f656761705f36315f6b6369745f706f22]), ([0x657a697372646461], [0x6574756c6f736261]), ([0x65706f6373], [0x31]), ([0x666564], [0x3032382b3332392b373539]), ([0x6c6176], [0x464237397830]), ([0x676573], [0x30]), ([0x65707974], [0x62616c])],
  [([0x6469], [0x353834]), ([0x656d616e], [0x2236355f656761705f34315f6b6369745f706f22]), ([0x657a697372646461], [0x6574756c6f736261]), ([0x65706f6373], [0x31]), ([0x666564], [0x33312b3430332b373539]), ([0x6c6176], [0x464137397830]), ([0x676573], [0x30]), ([0x65707974], [0x62616c])],
  [([0x6469], [0x363834]), ([0x656d616e], [0x2236355f656761705f32315f6b6369745f706f22]), ([0x657a697372646461], [0x6574756c6f736261]), ([0x65706f6373], [0x31]), ([0x666564], [0x3736372b383431312b373539]), ([0x6c6176], [0x453937397830]), ([0x676573], [0x30]), ([0x65707974], [0x62616c])],
  [([0x6469], [0x373834]), ([0x656d616e], [0x2236355f656761705f30315f6b6369745f706f22]), ([0x657a697372646461], [0x6574756c6f736261]), ([0x65706f6373], [0x31]), ([0x666564], [0x3334392b3334372b373539]), ([0x6c6176], [0x313937397830]), ([0x676573], [0x30]), ([0x65707974], [0x62616c])],
  [([0x6469], [0x383834]), ([0x656d616e], [0x2236355f656761705f385f6b6369745f706f22]), ([0x657a697372646461], [0x6574756c6f736261]), ([0x65706f6373], [0x31]), ([0x666564], [0x3132382b3037332b373539]), ([0x6c6176], [0x333837397830]), ([0x676573], [0x30]), ([0x65707974], [0x62616c])],
  [([0x6469], [0x393834]), ([0x656d616e], [0x22385f6c6961745f36355f656761705f6b6369745f706f5f22]), ([0x657a697372646461], [0x6574756c6f736261]), ([0x65706f6373], [0x31]), ([0x666564], [0x3432312b3033362b3737352b373539]), ([0x6c6176], [0x443737397830]), ([0x676573], [0x30]), ([0x65707974], [0x62616c])],
  [([0x6469], [0x303934]), ([0x656d616e], [0x2232315f6c6961745f36355f656761705f6b6369745f706f5f22]), ([0x657a697372646461], [0x6574756c6f736261]), ([0x65706f6373], [0x31]), ([0x666564], [0x3432312b383430312b3737352b373539]), ([0x666572], [0x373539]), ([0x6c6176], [0x413737397830]), ([0x676573], [0x30]), ([0x65707974], [0x62616c])],
  [([0x6469], [0x313934]), ([0x656d616e], [0x22706d6a5f36355f656761705f365f6b6369745f706f5f22]), ([0x657a697372646461], [0x6574756c6f736261]), ([0x65706f6373], [0x31]), ([0x666564], [0x3735372b3737352b373539]), ([0x666572], [0x3735392b3735392b373539]), ([0x6c6176], [0x303837397830]), ([0x676573], [0x30]), ([0x65707974], [0x62616c])],
  [([0x6469], [0x323934]), ([0x656d616e], [0x2236315f6c6961745f36355f656761705f6b6369745f706f5f22]), ([0x657a697372646461], [0x6574756c6f736261]), ([0x65706f6373], [0x31]), ([0x666564], [0x3432312b3837312b3737352b373539]), ([0x666572], [0x373539]), ([0x6c6176], [0x373737397830]), ([0x676573], [0x30]), ([0x65707974], [0x62616c])],
  [([0x6469], [0x333934]), ([0x656d616e], [0x2230325f6c6961745f36355f656761705f6b6369745f706f5f22]), ([0x657a697372646461], [0x6574756c6f736261]), ([0x65706f6373], [0x31]), ([0x666564], [0x3432312b3238362b3737352b373539]), ([0x666572], [0x3735392b373539]), ([0x6c6176], [0x343737397830]), ([0x676573], [0x30]), ([0x65707974], [0x62616c])],
  [([0x6469], [0x343934]), ([0x656d616e], [0x2235325f6c6961745f36355f656761705f6b6369745f706f5f22]), ([0x657a697372646461], [0x6574756c6f736261]), ([0x65706f6373], [0x31]), ([0x666564], [0x3432312b353431312b3737352b373539]), ([0x6c6176], [0x313737397830]), ([0x676573], [0x30]), ([0x65707974], [0x62616c])],
  [([0x6469], [0x353934]), ([0x656d616e], [0x2239325f6c6961745f36355f656761705f6b6369745f706f5f22]), ([0x657a697372646461], [0x6574756c6f736261]), ([0x65706f6373], [0x31]), ([0x666564], [0x3432312b343632312b3737352b373539]), ([0x6c6176], [0x453637397830]), ([0x676573], [0x30]), ([0x65707974], [0x62616c])],
  [([0x6469], [0x363934]), ([0x656d616e], [0x2234335f6c6961745f36355f656761705f6b6369745f706f5f22]), ([0x657a697372646461], [0x6574756c6f736261]), ([0x65706f6373], [0x31]), ([0x666564], [0x3432312b3538342b3737352b373539]), ([0x666572], [0x373539]), ([0x6c6176], [0x423637397830]), ([0x676573], [0x30]), ([0x65707974], [0x62616c])],
  [([0x6469], [0x373934]), ([0x656d616e], [0x2238335f6c6961745f36355f656761705f6b6369745f706f5f22]), ([0x657a697372646461], [0x6574756c6f736261]), ([0x65706f6373], [0x31]), ([0x666564], [0x3432312b3435352b3737352b373539]), ([0x666572], [0x373539]), ([0x6c6176], [0x383637397830]), ([0x676573], [0x30]), ([0x65707974], [0x62616c])],
  [([0x6469], [0x383934]), ([0x656d616e], [0x2233345f6c6961745f36355f656761705f6b6369745f706f5f22]), ([0x657a697372646461], [0x6574756c6f736261]), ([0x65706f6373], [0x31]), ([0x666564], [0x3432312b383433312b3737352b373539]), ([0x666572], [0x373539]), ([0x6c6176], [0x353637397830]), ([0x676573], [0x30]), ([0x65707974], [0x62616c])],
  [([0x6469], [0x393934]), ([0x656d616e], [0x2237345f6c6961745f36355f656761705f6b6369745f706f5f22]), ([0x657a697372646461], [0x6574756c6f736261]), ([0x65706f6373], [0x31]), ([0x666564], [0x3432312b3637372b3737352b373539]), ([0x6c6176], [0x323637397830]), ([0x676573], [0x30]), ([0x65707974], [0x62616c])],
  [([0x6469], [0x303035]), ([0x656d616e], [0x2232355f6c6961745f36355f656761705f6b6369745f706f5f22]), ([0x657a697372646461], [0x6574756c6f736261]), ([0x65706f6373], [0x31]), ([0x666564], [0x3432312b3137362b3737352b373539]), ([0x666572], [0x373539]), ([0x6c6176], [0x463537397830]), ([0x676573], [0x30]), ([0x65707974], [0x62616c])],
  [([0x6469], [0x313035]), ([0x656d616e], [0x2236355f6c6961745f36355f656761705f6b6369745f706f5f22]), ([0x657a697372646461], [0x6574756c6f736261]), ([0x65706f6373], [0x31]), ([0x666564], [0x3432312b3839342b3737352b373539]), ([0x666572], [0x373539]), ([0x6c6176], [0x433537397830]), ([0x676573], [0x30]), ([0x65707974], [0x62616c])],
  [([0x6469], [0x323035]), ([0x656d616e], [0x2230365f6c6961745f36355f656761705f6b6369745f706f5f22]), ([0x657a697372646461], [0x6574756c6f736261]), ([0x65706f6373], [0x31]), ([0x666564], [0x3432312b353632312b3737352b373539]), ([0x6c6176], [0x393537397830]), ([0x676573], [0x30]), ([0x65707974], [0x62616c])],
  [([0x6469], [0x333035]), ([0x656d616e], [0x2236355f656761705f365f6b6369745f706f22]), ([0x657a697372646461], [0x6574756c6f736261]), ([0x65706f6373], [0x31]), ([0x666564], [0x3432382b3737352b373539]), ([0x6c6176], [0x303537397830]), ([0x676573], [0x30]), ([0x65707974], [0x62616c])],
  [([0x6469], [0x343035]), ([0x656d616e], [0x22375f6c6961745f36355f656761705f6b6369745f706f5f22]), ([0x657a697372646461], [0x6574756c6f736261]), ([0x65706f6373], [0x31]), ([0x666564], [0x3432312b3330392b3337332b373539]), ([0x6c6176], [0x413437397830]), ([0x676573], [0x30]), ([0x65707974], [0x62616c])],
  [([0x6469], [0x353035]), ([0x656d616e], [0x2231315f6c6961745f36355f656761705f6b6369745f706f5f22]), ([0x657a697372646461], [0x6574756c6f736261]), ([0x65706f6373], [0x31]), ([0x666564], [0x3432312b333732312b3337332b373539]), ([0x6c6176], [0x373437397830]), ([0x676573], [0x30]), ([0x65707974], [0x62616c])],
  [([0x6469], [0x363035]), ([0x656d616e], [0x22706d6a5f36355f656761705f345f6b6369745f706f5f22]), ([0x657a697372646461], [0x6574756c6f736261]), ([0x65706f6373], [0x31]), ([0x666564], [0x3134322b3337332b373539]), ([0x666572], [0x3735392b373539]), ([0x6c6176], [0x443437397830]), ([0x676573], [0x30]), ([0x65707974], [0x62616c])],
  [([0x6469], [0x373035]), ([0x656d616e], [0x2235315f6c6961745f36355f656761705f6b6369745f706f5f22]), ([0x657a697372646461], [0x6574756c6f736261]), ([0x65706f6373], [0x31]), ([0x666564], [0x3432312b3538352b3337332b373539]), ([0x666572], [0x373539]), ([0x6c6176], [0x343437397830]), ([0x676573], [0x30]), ([0x65707974], [0x62616c])],
  [([0x6469], [0x383035]), ([0x656d616e], [0x2239315f6c6961745f36355f656761705f6b6369745f706f5f22]), ([0x657a697372646461], [0x6574756c6f736261]), ([0x65706f6373], [0x31]), ([0x666564], [0x3432312b3737322b3337332b373539]), ([0x666572], [0x373539]), ([0x6c6176], [0x313437397830]), ([0x676573], [0x30]), ([0x65707974], [0x62616c])],
  [([0x6469], [0x393035]), ([0x656d616e], [0x2234325f6c6961745f36355f656761705f6b6369745f706f5f22]), ([0x657a697372646461], [0x6574756c6f736261]), ([0x65706f6373], [0x31]), ([0x666564], [0x3432312b3831352b3337332b373539]), ([0x666572], [0x3735392b373539]), ([0x6c6176], [0x453337397830]), ([0x676573], [0x30]), ([0x65707974], [0x62616c])],
  [([0x6469], [0x303135]), ([0x656d616e], [0x2238325f6c6961745f36355f656761705f6b6369745f706f5f22]), ([0x657a697372646461], [0x6574756c6f736261]), ([0x65706f6373], [0x31]), ([0x666564], [0x3432312b3436312b3337332b373539]), ([0x666572], [0x373539]), ([0x6c6176], [0x423337397830]), ([0x676573], [0x30]), ([0x65707974], [0x62616c])],
  [([0x6469], [0x313135]), ([0x656d616e], [0x2233335f6c6961745f36355f656761705f6b6369745f706f5f22]), ([0x657a697372646461], [0x6574756c6f736261]), ([0x65706f6373], [0x31]), ([0x666564], [0x3432312b3435312b3337332b373539]), ([0x666572], [0x373539]), ([0x6c6176], [0x383337397830]), ([0x676573], [0x30]), ([0x65707974], [0x62616c])]]

/-- player/iivision.dbg, sym lines 512-543 -/
def symLines16 : List (List (List Nat × List Nat)) := [
  [([0x6469], [0x323135]), ([0x656d616e], [0x2237335f6c6961745f36355f656761705f6b6369745f706f5f22]), ([0x657a697372646461], [0x6574756c6f736261]), ([0x65706f6373], [0x31]), ([0x666564], [0x3432312b373532312b3337332b373539]), ([0x666572], [0x373539]), ([0x6c6176], [0x353337397830]), ([0x676573], [0x30]), ([0x65707974], [0x62616c])],
  [([0x6469], [0x333135]), ([0x656d616e], [0x2232345f6c6961745f36355f656761705f6b6369745f706f5f22]), ([0x657a697372646461], [0x6574756c6f736261]), ([0x65706f6373], [0x31]), ([0x666564], [0x3432312b323033312b3337332b373539]), ([0x666572], [0x3735392b373539]), ([0x6c6176], [0x323337397830]), ([0x676573], [0x30]), ([0x65707974], [0x62616c])],
  [([0x6469], [0x343135]), ([0x656d616e], [0x2236345f6c6961745f36355f656761705f6b6369745f706f5f22]), ([0x657a697372646461], [0x6574756c6f736261]), ([0x65706f6373], [0x31]), ([0x666564], [0x3432312b3530382b3337332b373539]), ([0x666572], [0x373539]), ([0x6c6176], [0x463237397830]), ([0x676573], [0x30]), ([0x65707974], [0x62616c])],
  [([0x6469], [0x353135]), ([0x656d616e], [0x2231355f6c6961745f36355f656761705f6b6369745f706f5f22]), ([0x657a697372646461], [0x6574756c6f736261]), ([0x65706f6373], [0x31]), ([0x666564], [0x3432312b343231312b3337332b373539]), ([0x666572], [0x373539]), ([0x6c6176], [0x433237397830]), ([0x676573], [0x30]), ([0x65707974], [0x62616c])],
  [([0x6469], [0x363135]), ([0x656d616e], [0x2235355f6c6961745f36355f656761705f6b6369745f706f5f22]), ([0x657a697372646461], [0x6574756c6f736261]), ([0x65706f6373], [0x31]), ([0x666564], [0x3432312b3332332b3337332b373539]), ([0x666572], [0x373539]), ([0x6c6176], [0x393237397830]), ([0x676573], [0x30]), ([0x65707974], [0x62616c])],
  [([0x6469], [0x373135]), ([0x656d616e], [0x2239355f6c6961745f36355f656761705f6b6369745f706f5f22]), ([0x657a697372646461], [0x6574756c6f736261]), ([0x65706f6373], [0x31]), ([0x666564], [0x3432312b323431312b3337332b373539]), ([0x6c6176], [0x363237397830]), ([0x676573], [0x30]), ([0x65707974], [0x62616c])],
  [([0x6469], [0x383135]), ([0x656d616e], [0x2236355f656761705f345f6b6369745f706f22]), ([0x657a697372646461], [0x6574756c6f736261]), ([0x65706f6373], [0x31]), ([0x666564], [0x323630312b3337332b373539]), ([0x6c6176], [0x433137397830]), ([0x676573], [0x30]), ([0x65707974], [0x62616c])],
  [([0x6469], [0x393135]), ([0x656d616e], [0x22444022]), ([0x657a697372646461], [0x6574756c6f736261]), ([0x746e65726170], [0x303235]), ([0x666564], [0x3435322b3833312b39363331]), ([0x666572], [0x393633312b39363331]), ([0x6c6176], [0x393137397830]), ([0x676573], [0x30]), ([0x65707974], [0x62616c])],
  [([0x6469], [0x303235]), ([0x656d616e], [0x2235355f656761705f36365f6b6369745f706f22]), ([0x657a697372646461], [0x6574756c6f736261]), ([0x65706f6373], [0x31]), ([0x666564], [0x3739362b3833312b39363331]), ([0x6c6176], [0x384536397830]), ([0x676573], [0x30]), ([0x65707974], [0x62616c])],
  [([0x6469], [0x313235]), ([0x656d616e], [0x22444022]), ([0x657a697372646461], [0x6574756c6f736261]), ([0x746e65726170], [0x323235]), ([0x666564], [0x3030372b313030312b39363331]), ([0x666572], [0x393633312b39363331]), ([0x6c6176], [0x354536397830]), ([0x676573], [0x30]), ([0x65707974], [0x62616c])],
  [([0x6469], [0x323235]), ([0x656d616e], [0x2235355f656761705f34365f6b6369745f706f22]), ([0x657a697372646461], [0x6574756c6f736261]), ([0x65706f6373], [0x31]), ([0x666564], [0x3937392b313030312b39363331]), ([0x6c6176], [0x344236397830]), ([0x676573], [0x30]), ([0x65707974], [0x62616c])],
  [([0x6469], [0x333235]), ([0x656d616e], [0x22444022]), ([0x657a697372646461], [0x6574756c6f736261]), ([0x746e65726170], [0x343235]), ([0x666564], [0x3033382b3436362b39363331]), ([0x666572], [0x393633312b39363331]), ([0x6c6176], [0x314236397830]), ([0x676573], [0x30]), ([0x65707974], [0x62616c])],
  [([0x6469], [0x343235]), ([0x656d616e], [0x2235355f656761705f32365f6b6369745f706f22]), ([0x657a697372646461], [0x6574756c6f736261]), ([0x65706f6373], [0x31]), ([0x666564], [0x3236322b3436362b39363331]), ([0x6c6176], [0x303836397830]), ([0x676573], [0x30]), ([0x65707974], [0x62616c])],
  [([0x6469], [0x353235]), ([0x656d616e], [0x22444022]), ([0x657a697372646461], [0x6574756c6f736261]), ([0x746e65726170], [0x363235]), ([0x666564], [0x3332382b3937372b39363331]), ([0x666572], [0x393633312b39363331]), ([0x6c6176], [0x443736397830]), ([0x676573], [0x30]), ([0x65707974], [0x62616c])],
  [([0x6469], [0x363235]), ([0x656d616e], [0x2235355f656761705f30365f6b6369745f706f22]), ([0x657a697372646461], [0x6574756c6f736261]), ([0x65706f6373], [0x31]), ([0x666564], [0x3532372b3937372b39363331]), ([0x6c6176], [0x433436397830]), ([0x676573], [0x30]), ([0x65707974], [0x62616c])],
  [([0x6469], [0x373235]), ([0x656d616e], [0x22444022]), ([0x657a697372646461], [0x6574756c6f736261]), ([0x746e65726170], [0x383235]), ([0x666564], [0x383831312b3031352b39363331]), ([0x666572], [0x393633312b39363331]), ([0x6c6176], [0x393436397830]), ([0x676573], [0x30]), ([0x65707974], [0x62616c])],
  [([0x6469], [0x383235]), ([0x656d616e], [0x2235355f656761705f38355f6b6369745f706f22]), ([0x657a697372646461], [0x6574756c6f736261]), ([0x65706f6373], [0x31]), ([0x666564], [0x3638392b3031352b39363331]), ([0x6c6176], [0x383136397830]), ([0x676573], [0x30]), ([0x65707974], [0x62616c])],
  [([0x6469], [0x393235]), ([0x656d616e], [0x22444022]), ([0x657a697372646461], [0x6574756c6f736261]), ([0x746e65726170], [0x303335]), ([0x666564], [0x3130382b3430372b39363331]), ([0x666572], [0x393633312b39363331]), ([0x6c6176], [0x353136397830]), ([0x676573], [0x30]), ([0x65707974], [0x62616c])],
  [([0x6469], [0x303335]), ([0x656d616e], [0x2235355f656761705f36355f6b6369745f706f22]), ([0x657a697372646461], [0x6574756c6f736261]), ([0x65706f6373], [0x31]), ([0x666564], [0x363832312b3430372b39363331]), ([0x6c6176], [0x344535397830]), ([0x676573], [0x30]), ([0x65707974], [0x62616c])],
  [([0x6469], [0x313335]), ([0x656d616e], [0x22444022]), ([0x657a697372646461], [0x6574756c6f736261]), ([0x746e65726170], [0x323335]), ([0x666564], [0x323230312b3132362b39363331]), ([0x666572], [0x393633312b39363331]), ([0x6c6176], [0x314535397830]), ([0x676573], [0x30]), ([0x65707974], [0x62616c])],
  [([0x6469], [0x323335]), ([0x656d616e], [0x2235355f656761705f34355f6b6369745f706f22]), ([0x657a697372646461], [0x6574756c6f736261]), ([0x65706f6373], [0x31]), ([0x666564], [0x313032312b3132362b39363331]), ([0x6c6176], [0x304235397830]), ([0x676573], [0x30]), ([0x65707974], [0x62616c])],
  [([0x6469], [0x333335]), ([0x656d616e], [0x2235355f656761705f32355f6b6369745f706f22]), ([0x657a697372646461], [0x6574756c6f736261]), ([0x65706f6373], [0x31]), ([0x666564], [0x3335312b3438382b39363331]), ([0x6c6176], [0x353835397830]), ([0x676573], [0x30]), ([0x65707974], [0x62616c])],
  [([0x6469], [0x343335]), ([0x656d616e], [0x2235355f656761705f30355f6b6369745f706f22]), ([0x657a697372646461], [0x6574756c6f736261]), ([0x65706f6373], [0x31]), ([0x666564], [0x3236392b3431312b39363331]), ([0x6c6176], [0x443535397830]), ([0x676573], [0x30]), ([0x65707974], [0x62616c])],
  [([0x6469], [0x353335]), ([0x656d616e], [0x2235355f656761705f38345f6b6369745f706f22]), ([0x657a697372646461], [0x6574756c6f736261]), ([0x65706f6373], [0x31]), ([0x666564], [0x3933342b363230312b39363331]), ([0x6c6176], [0x343335397830]), ([0x676573], [0x30]), ([0x65707974], [0x62616c])],
  [([0x6469], [0x363335]), ([0x656d616e], [0x2235355f656761705f36345f6b6369745f706f22]), ([0x657a697372646461], [0x6574756c6f736261]), ([0x65706f6373], [0x31]), ([0x666564], [0x343430312b3734362b39363331]), ([0x6c6176], [0x463035397830]), ([0x676573], [0x30]), ([0x65707974], [0x62616c])],
  [([0x6469], [0x373335]), ([0x656d616e], [0x2235355f656761705f34345f6b6369745f706f22]), ([0x657a697372646461], [0x6574756c6f736261]), ([0x65706f6373], [0x31]), ([0x666564], [0x3634352b3836322b39363331]), ([0x6c6176], [0x394534397830]), ([0x676573], [0x30]), ([0x65707974], [0x62616c])],
  [([0x6469], [0x383335]), ([0x656d616e], [0x2235355f656761705f32345f6b6369745f706f22]), ([0x657a697372646461], [0x6574756c6f736261]), ([0x65706f6373], [0x31]), ([0x666564], [0x37362b32362b39363331]), ([0x6c6176], [0x364334397830]), ([0x676573], [0x30]), ([0x65707974], [0x62616c])],
  [([0x6469], [0x393335]), ([0x656d616e], [0x2235355f656761705f30345f6b6369745f706f22]), ([0x657a697372646461], [0x6574756c6f736261]), ([0x65706f6373], [0x31]), ([0x666564], [0x323232312b343131312b39363331]), ([0x6c6176], [0x334134397830]), ([0x676573], [0x30]), ([0x65707974], [0x62616c])],
  [([0x6469], [0x303435]), ([0x656d616e], [0x2235355f656761705f38335f6b6369745f706f22]), ([0x657a697372646461], [0x6574756c6f736261]), ([0x65706f6373], [0x31]), ([0x666564], [0x353633312b3930362b39363331]), ([0x6c6176], [0x333834397830]), ([0x676573], [0x30]), ([0x65707974], [0x62616c])],
  [([0x6469], [0x313435]), ([0x656d616e], [0x22444022]), ([0x657a697372646461], [0x6574756c6f736261]), ([0x746e65726170], [0x323435]), ([0x666564], [0x333932312b363332312b39363331]), ([0x666572], [0x393633312b39363331]), ([0x6c6176], [0x303834397830]), ([0x676573], [0x30]), ([0x65707974], [0x62616c])],
  [([0x6469], [0x323435]), ([0x656d616e], [0x2235355f656761705f36335f6b6369745f706f22]), ([0x657a697372646461], [0x6574756c6f736261]), ([0x65706f6373], [0x31]), ([0x666564], [0x3036382b363332312b39363331]), ([0x6c6176], [0x463434397830]), ([0x676573], [0x30]), ([0x65707974], [0x62616c])],
  [([0x6469], [0x333435]), ([0x656d616e], [0x2235355f656761705f34335f6b6369745f706f22]), ([0x657a697372646461], [0x6574756c6f736261]), ([0x65706f6373], [0x31]), ([0x666564], [0x343030312b363330312b39363331]), ([0x6c6176], [0x393234397830]), ([0x676573], [0x30]), ([0x65707974], [0x62616c])]]

/-- player/iivision.dbg, sym lines 544-575 -/
def symLines17 : List (List (List Nat × List Nat)) := [
  [([0x6469], [0x343435]), ([0x656d616e], [0x2235355f656761705f32335f6b6369745f706f22]), ([0x657a697372646461], [0x6574756c6f736261]), ([0x65706f6373], [0x31]), ([0x666564], [0x3234362b393230312b39363331]), ([0x6c6176], [0x443034397830]), ([0x676573], [0x30]), ([0x65707974], [0x62616c])],
  [([0x6469], [0x353435]), ([0x656d616e], [0x2235355f656761705f30335f6b6369745f706f22]), ([0x657a697372646461], [0x6574756c6f736261]), ([0x65706f6373], [0x31]), ([0x666564], [0x373330312b373130312b39363331]), ([0x6c6176], [0x304633397830]), ([0x676573], [0x30]), ([0x65707974], [0x62616c])],
  [([0x6469], [0x363435]), ([0x656d616e], [0x2235355f656761705f38325f6b6369745f706f22]), ([0x657a697372646461], [0x6574756c6f736261]), ([0x65706f6373], [0x31]), ([0x666564], [0x3231322b3637312b39363331]), ([0x6c6176], [0x374433397830]), ([0x676573], [0x30]), ([0x65707974], [0x62616c])],
  [([0x6469], [0x373435]), ([0x656d616e], [0x2235355f656761705f36325f6b6369745f706f22]), ([0x657a697372646461], [0x6574756c6f736261]), ([0x65706f6373], [0x31]), ([0x666564], [0x3038352b3831322b39363331]), ([0x6c6176], [0x444233397830]), ([0x676573], [0x30]), ([0x65707974], [0x62616c])],
  [([0x6469], [0x383435]), ([0x656d616e], [0x2235355f656761705f34325f6b6369745f706f22]), ([0x657a697372646461], [0x6574756c6f736261]), ([0x65706f6373], [0x31]), ([0x666564], [0x3837362b333232312b39363331]), ([0x6c6176], [0x364133397830]), ([0x676573], [0x30]), ([0x65707974], [0x62616c])],
  [([0x6469], [0x393435]), ([0x656d616e], [0x2235355f656761705f32325f6b6369745f706f22]), ([0x657a697372646461], [0x6574756c6f736261]), ([0x65706f6373], [0x31]), ([0x666564], [0x323931312b373033312b39363331]), ([0x6c6176], [0x463833397830]), ([0x676573], [0x30]), ([0x65707974], [0x62616c])],
  [([0x6469], [0x303535]), ([0x656d616e], [0x2235355f656761705f30325f6b6369745f706f22]), ([0x657a697372646461], [0x6574756c6f736261]), ([0x65706f6373], [0x31]), ([0x666564], [0x32332b373732312b39363331]), ([0x6c6176], [0x423733397830]), ([0x676573], [0x30]), ([0x65707974], [0x62616c])],
  [([0x6469], [0x313535]), ([0x656d616e], [0x22444022]), ([0x657a697372646461], [0x6574756c6f736261]), ([0x746e65726170], [0x323535]), ([0x666564], [0x3430352b38392b39363331]), ([0x666572], [0x393633312b39363331]), ([0x6c6176], [0x383733397830]), ([0x676573], [0x30]), ([0x65707974], [0x62616c])],
  [([0x6469], [0x323535]), ([0x656d616e], [0x2235355f656761705f38315f6b6369745f706f22]), ([0x657a697372646461], [0x6574756c6f736261]), ([0x65706f6373], [0x31]), ([0x666564], [0x323032312b38392b39363331]), ([0x6c6176], [0x373433397830]), ([0x676573], [0x30]), ([0x65707974], [0x62616c])],
  [([0x6469], [0x333535]), ([0x656d616e], [0x2235355f656761705f36315f6b6369745f706f22]), ([0x657a697372646461], [0x6574756c6f736261]), ([0x65706f6373], [0x31]), ([0x666564], [0x3032382b3332392b39363331]), ([0x6c6176], [0x303333397830]), ([0x676573], [0x30]), ([0x65707974], [0x62616c])],
  [([0x6469], [0x343535]), ([0x656d616e], [0x2235355f656761705f34315f6b6369745f706f22]), ([0x657a697372646461], [0x6574756c6f736261]), ([0x65706f6373], [0x31]), ([0x666564], [0x33312b3430332b39363331]), ([0x6c6176], [0x303233397830]), ([0x676573], [0x30]), ([0x65707974], [0x62616c])],
  [([0x6469], [0x353535]), ([0x656d616e], [0x2235355f656761705f32315f6b6369745f706f22]), ([0x657a697372646461], [0x6574756c6f736261]), ([0x65706f6373], [0x31]), ([0x666564], [0x3736372b383431312b39363331]), ([0x6c6176], [0x463033397830]), ([0x676573], [0x30]), ([0x65707974], [0x62616c])],
  [([0x6469], [0x363535]), ([0x656d616e], [0x2235355f656761705f30315f6b6369745f706f22]), ([0x657a697372646461], [0x6574756c6f736261]), ([0x65706f6373], [0x31]), ([0x666564], [0x3334392b3334372b39363331]), ([0x6c6176], [0x323033397830]), ([0x676573], [0x30]), ([0x65707974], [0x62616c])],
  [([0x6469], [0x373535]), ([0x656d616e], [0x2235355f656761705f385f6b6369745f706f22]), ([0x657a697372646461], [0x6574756c6f736261]), ([0x65706f6373], [0x31]), ([0x666564], [0x3132382b3037332b39363331]), ([0x6c6176], [0x344632397830]), ([0x676573], [0x30]), ([0x65707974], [0x62616c])],
  [([0x6469], [0x383535]), ([0x656d616e], [0x22385f6c6961745f35355f656761705f6b6369745f706f5f22]), ([0x657a697372646461], [0x6574756c6f736261]), ([0x65706f6373], [0x31]), ([0x666564], [0x3432312b3033362b3737352b39363331]), ([0x6c6176], [0x454532397830]), ([0x676573], [0x30]), ([0x65707974], [0x62616c])],
  [([0x6469], [0x393535]), ([0x656d616e], [0x2232315f6c6961745f35355f656761705f6b6369745f706f5f22]), ([0x657a697372646461], [0x6574756c6f736261]), ([0x65706f6373], [0x31]), ([0x666564], [0x3432312b383430312b3737352b39363331]), ([0x666572], [0x39363331]), ([0x6c6176], [0x424532397830]), ([0x676573], [0x30]), ([0x65707974], [0x62616c])],
  [([0x6469], [0x303635]), ([0x656d616e], [0x22706d6a5f35355f656761705f365f6b6369745f706f5f22]), ([0x657a697372646461], [0x6574756c6f736261]), ([0x65706f6373], [0x31]), ([0x666564], [0x3735372b3737352b39363331]), ([0x666572], [0x393633312b393633312b39363331]), ([0x6c6176], [0x314632397830]), ([0x676573], [0x30]), ([0x65707974], [0x62616c])],
  [([0x6469], [0x313635]), ([0x656d616e], [0x2236315f6c6961745f35355f656761705f6b6369745f706f5f22]), ([0x657a697372646461], [0x6574756c6f736261]), ([0x65706f6373], [0x31]), ([0x666564], [0x3432312b3837312b3737352b39363331]), ([0x666572], [0x39363331]), ([0x6c6176], [0x384532397830]), ([0x676573], [0x30]), ([0x65707974], [0x62616c])],
  [([0x6469], [0x323635]), ([0x656d616e], [0x2230325f6c6961745f35355f656761705f6b6369745f706f5f22]), ([0x657a697372646461], [0x6574756c6f736261]), ([0x65706f6373], [0x31]), ([0x666564], [0x3432312b3238362b3737352b39363331]), ([0x666572], [0x393633312b39363331]), ([0x6c6176], [0x354532397830]), ([0x676573], [0x30]), ([0x65707974], [0x62616c])],
  [([0x6469], [0x333635]), ([0x656d616e], [0x2235325f6c6961745f35355f656761705f6b6369745f706f5f22]), ([0x657a697372646461], [0x6574756c6f736261]), ([0x65706f6373], [0x31]), ([0x666564], [0x3432312b353431312b3737352b39363331]), ([0x6c6176], [0x324532397830]), ([0x676573], [0x30]), ([0x65707974], [0x62616c])],
  [([0x6469], [0x343635]), ([0x656d616e], [0x2239325f6c6961745f35355f656761705f6b6369745f706f5f22]), ([0x657a697372646461], [0x6574756c6f736261]), ([0x65706f6373], [0x31]), ([0x666564], [0x3432312b343632312b3737352b39363331]), ([0x6c6176], [0x464432397830]), ([0x676573], [0x30]), ([0x65707974], [0x62616c])],
  [([0x6469], [0x353635]), ([0x656d616e], [0x2234335f6c6961745f35355f656761705f6b6369745f706f5f22]), ([0x657a697372646461], [0x6574756c6f736261]), ([0x65706f6373], [0x31]), ([0x666564], [0x3432312b3538342b3737352b39363331]), ([0x666572], [0x39363331]), ([0x6c6176], [0x434432397830]), ([0x676573], [0x30]), ([0x65707974], [0x62616c])],
  [([0x6469], [0x363635]), ([0x656d616e], [0x2238335f6c6961745f35355f656761705f6b6369745f706f5f22]), ([0x657a697372646461], [0x6574756c6f736261]), ([0x65706f6373], [0x31]), ([0x666564], [0x3432312b3435352b3737352b39363331]), ([0x666572], [0x39363331]), ([0x6c6176], [0x394432397830]), ([0x676573], [0x30]), ([0x65707974], [0x62616c])],
  [([0x6469], [0x373635]), ([0x656d616e], [0x2233345f6c6961745f35355f656761705f6b6369745f706f5f22]), ([0x657a697372646461], [0x6574756c6f736261]), ([0x65706f6373], [0x31]), ([0x666564], [0x3432312b383433312b3737352b39363331]), ([0x666572], [0x39363331]), ([0x6c6176], [0x364432397830]), ([0x676573], [0x30]), ([0x65707974], [0x62616c])],
  [([0x6469], [0x383635]), ([0x656d616e], [0x2237345f6c6961745f35355f656761705f6b6369745f706f5f22]), ([0x657a697372646461], [0x6574756c6f736261]), ([0x65706f6373], [0x31]), ([0x666564], [0x3432312b3637372b3737352b39363331]), ([0x6c6176], [0x334432397830]), ([0x676573], [0x30]), ([0x65707974], [0x62616c])],
  [([0x6469], [0x393635]), ([0x656d616e], [0x2232355f6c6961745f35355f656761705f6b6369745f706f5f22]), ([0x657a697372646461], [0x6574756c6f736261]), ([0x65706f6373], [0x31]), ([0x666564], [0x3432312b3137362b3737352b39363331]), ([0x666572], [0x39363331]), ([0x6c6176], [0x304432397830]), ([0x676573], [0x30]), ([0x65707974], [0x62616c])],
  [([0x6469], [0x303735]), ([0x656d616e], [0x2236355f6c6961745f35355f656761705f6b6369745f706f5f22]), ([0x657a697372646461], [0x6574756c6f736261]), ([0x65706f6373], [0x31]), ([0x666564], [0x3432312b3839342b3737352b39363331]), ([0x666572], [0x39363331]), ([0x6c6176], [0x444332397830]), ([0x676573], [0x30]), ([0x65707974], [0x62616c])],
  [([0x6469], [0x313735]), ([0x656d616e], [0x2230365f6c6961745f35355f656761705f6b6369745f706f5f22]), ([0x657a697372646461], [0x6574756c6f736261]), ([0x65706f6373], [0x31]), ([0x666564], [0x3432312b353632312b3737352b39363331]), ([0x6c6176], [0x414332397830]), ([0x676573], [0x30]), ([0x65707974], [0x62616c])],
  [([0x6469], [0x323735]), ([0x656d616e], [0x2235355f656761705f365f6b6369745f706f22]), ([0x657a697372646461], [0x6574756c6f736261]), ([0x65706f6373], [0x31]), ([0x666564], [0x3432382b3737352b39363331]), ([0x6c6176], [0x314332397830]), ([0x676573], [0x30]), ([0x65707974], [0x62616c])],
  [([0x6469], [0x333735]), ([0x656d616e], [0x22375f6c6961745f35355f656761705f6b6369745f706f5f22]), ([0x657a697372646461], [0x6574756c6f736261]), ([0x65706f6373], [0x31]), ([0x666564], [0x3432312b3330392b3337332b39363331]), ([0x6c6176], [0x424232397830]), ([0x676573], [0x30]), ([0x65707974], [0x62616c])],
  [([0x6469], [0x343735]), ([0x656d616e], [0x2231315f6c6961745f35355f656761705f6b6369745f706f5f22]), ([0x657a697372646461], [0x6574756c6f736261]), ([0x65706f6373], [0x31]), ([0x666564], [0x3432312b333732312b3337332b39363331]), ([0x6c6176], [0x384232397830]), ([0x676573], [0x30]), ([0x65707974], [0x62616c])],
  [([0x6469], [0x353735]), ([0x656d616e], [0x22706d6a5f35355f656761705f345f6b6369745f706f5f22]), ([0x657a697372646461], [0x6574756c6f736261]), ([0x65706f6373], [0x31]), ([0x666564], [0x3134322b3337332b39363331]), ([0x666572], [0x393633312b39363331]), ([0x6c6176], [0x454232397830]), ([0x676573], [0x30]), ([0x65707974], [0x62616c])]]

/-- player/iivision.dbg, sym lines 576-607 -/
def symLines18 : List (List (List Nat × List Nat)) := [
  [([0x6469], [0x363735]), ([0x656d616e], [0x2235315f6c6961745f35355f656761705f6b6369745f706f5f22]), ([0x657a697372646461], [0x6574756c6f736261]), ([0x65706f6373], [0x31]), ([0x666564], [0x3432312b3538352b3337332b39363331]), ([0x666572], [0x39363331]), ([0x6c6176], [0x354232397830]), ([0x676573], [0x30]), ([0x65707974], [0x62616c])],
  [([0x6469], [0x373735]), ([0x656d616e], [0x2239315f6c6961745f35355f656761705f6b6369745f706f5f22]), ([0x657a697372646461], [0x6574756c6f736261]), ([0x65706f6373], [0x31]), ([0x666564], [0x3432312b3737322b3337332b39363331]), ([0x666572], [0x39363331]), ([0x6c6176], [0x324232397830]), ([0x676573], [0x30]), ([0x65707974], [0x62616c])],
  [([0x6469], [0x383735]), ([0x656d616e], [0x2234325f6c6961745f35355f656761705f6b6369745f706f5f22]), ([0x657a697372646461], [0x6574756c6f736261]), ([0x65706f6373], [0x31]), ([0x666564], [0x3432312b3831352b3337332b39363331]), ([0x666572], [0x393633312b39363331]), ([0x6c6176], [0x464132397830]), ([0x676573], [0x30]), ([0x65707974], [0x62616c])],
  [([0x6469], [0x393735]), ([0x656d616e], [0x2238325f6c6961745f35355f656761705f6b6369745f706f5f22]), ([0x657a697372646461], [0x6574756c6f736261]), ([0x65706f6373], [0x31]), ([0x666564], [0x3432312b3436312b3337332b39363331]), ([0x666572], [0x39363331]), ([0x6c6176], [0x434132397830]), ([0x676573], [0x30]), ([0x65707974], [0x62616c])],
  [([0x6469], [0x303835]), ([0x656d616e], [0x2233335f6c6961745f35355f656761705f6b6369745f706f5f22]), ([0x657a697372646461], [0x6574756c6f736261]), ([0x65706f6373], [0x31]), ([0x666564], [0x3432312b3435312b3337332b39363331]), ([0x666572], [0x39363331]), ([0x6c6176], [0x394132397830]), ([0x676573], [0x30]), ([0x65707974], [0x62616c])],
  [([0x6469], [0x313835]), ([0x656d616e], [0x2237335f6c6961745f35355f656761705f6b6369745f706f5f22]), ([0x657a697372646461], [0x6574756c6f736261]), ([0x65706f6373], [0x31]), ([0x666564], [0x3432312b373532312b3337332b39363331]), ([0x666572], [0x39363331]), ([0x6c6176], [0x364132397830]), ([0x676573], [0x30]), ([0x65707974], [0x62616c])],
  [([0x6469], [0x323835]), ([0x656d616e], [0x2232345f6c6961745f35355f656761705f6b6369745f706f5f22]), ([0x657a697372646461], [0x6574756c6f736261]), ([0x65706f6373], [0x31]), ([0x666564], [0x3432312b323033312b3337332b39363331]), ([0x666572], [0x393633312b39363331]), ([0x6c6176], [0x334132397830]), ([0x676573], [0x30]), ([0x65707974], [0x62616c])],
  [([0x6469], [0x333835]), ([0x656d616e], [0x2236345f6c6961745f35355f656761705f6b6369745f706f5f22]), ([0x657a697372646461], [0x6574756c6f736261]), ([0x65706f6373], [0x31]), ([0x666564], [0x3432312b3530382b3337332b39363331]), ([0x666572], [0x39363331]), ([0x6c6176], [0x304132397830]), ([0x676573], [0x30]), ([0x65707974], [0x62616c])],
  [([0x6469], [0x343835]), ([0x656d616e], [0x2231355f6c6961745f35355f656761705f6b6369745f706f5f22]), ([0x657a697372646461], [0x6574756c6f736261]), ([0x65706f6373], [0x31]), ([0x666564], [0x3432312b343231312b3337332b39363331]), ([0x666572], [0x39363331]), ([0x6c6176], [0x443932397830]), ([0x676573], [0x30]), ([0x65707974], [0x62616c])],
  [([0x6469], [0x353835]), ([0x656d616e], [0x2235355f6c6961745f35355f656761705f6b6369745f706f5f22]), ([0x657a697372646461], [0x6574756c6f736261]), ([0x65706f6373], [0x31]), ([0x666564], [0x3432312b3332332b3337332b39363331]), ([0x666572], [0x39363331]), ([0x6c6176], [0x413932397830]), ([0x676573], [0x30]), ([0x65707974], [0x62616c])],
  [([0x6469], [0x363835]), ([0x656d616e], [0x2239355f6c6961745f35355f656761705f6b6369745f706f5f22]), ([0x657a697372646461], [0x6574756c6f736261]), ([0x65706f6373], [0x31]), ([0x666564], [0x3432312b323431312b3337332b39363331]), ([0x6c6176], [0x373932397830]), ([0x676573], [0x30]), ([0x65707974], [0x62616c])],
  [([0x6469], [0x373835]), ([0x656d616e], [0x2235355f656761705f345f6b6369745f706f22]), ([0x657a697372646461], [0x6574756c6f736261]), ([0x65706f6373], [0x31]), ([0x666564], [0x323630312b3337332b39363331]), ([0x6c6176], [0x443832397830]), ([0x676573], [0x30]), ([0x65707974], [0x62616c])],
  [([0x6469], [0x383835]), ([0x656d616e], [0x22444022]), ([0x657a697372646461], [0x6574756c6f736261]), ([0x746e65726170], [0x393835]), ([0x666564], [0x3435322b3833312b32303131]), ([0x666572], [0x323031312b32303131]), ([0x6c6176], [0x413832397830]), ([0x676573], [0x30]), ([0x65707974], [0x62616c])],
  [([0x6469], [0x393835]), ([0x656d616e], [0x2234355f656761705f36365f6b6369745f706f22]), ([0x657a697372646461], [0x6574756c6f736261]), ([0x65706f6373], [0x31]), ([0x666564], [0x3739362b3833312b32303131]), ([0x6c6176], [0x393532397830]), ([0x676573], [0x30]), ([0x65707974], [0x62616c])],
  [([0x6469], [0x303935]), ([0x656d616e], [0x22444022]), ([0x657a697372646461], [0x6574756c6f736261]), ([0x746e65726170], [0x313935]), ([0x666564], [0x3030372b313030312b32303131]), ([0x666572], [0x323031312b32303131]), ([0x6c6176], [0x363532397830]), ([0x676573], [0x30]), ([0x65707974], [0x62616c])],
  [([0x6469], [0x313935]), ([0x656d616e], [0x2234355f656761705f34365f6b6369745f706f22]), ([0x657a697372646461], [0x6574756c6f736261]), ([0x65706f6373], [0x31]), ([0x666564], [0x3937392b313030312b32303131]), ([0x6c6176], [0x353232397830]), ([0x676573], [0x30]), ([0x65707974], [0x62616c])],
  [([0x6469], [0x323935]), ([0x656d616e], [0x22444022]), ([0x657a697372646461], [0x6574756c6f736261]), ([0x746e65726170], [0x333935]), ([0x666564], [0x3033382b3436362b32303131]), ([0x666572], [0x323031312b32303131]), ([0x6c6176], [0x323232397830]), ([0x676573], [0x30]), ([0x65707974], [0x62616c])],
  [([0x6469], [0x333935]), ([0x656d616e], [0x2234355f656761705f32365f6b6369745f706f22]), ([0x657a697372646461], [0x6574756c6f736261]), ([0x65706f6373], [0x31]), ([0x666564], [0x3236322b3436362b32303131]), ([0x6c6176], [0x314631397830]), ([0x676573], [0x30]), ([0x65707974], [0x62616c])],
  [([0x6469], [0x343935]), ([0x656d616e], [0x22444022]), ([0x657a697372646461], [0x6574756c6f736261]), ([0x746e65726170], [0x353935]), ([0x666564], [0x3332382b3937372b32303131]), ([0x666572], [0x323031312b32303131]), ([0x6c6176], [0x454531397830]), ([0x676573], [0x30]), ([0x65707974], [0x62616c])],
  [([0x6469], [0x353935]), ([0x656d616e], [0x2234355f656761705f30365f6b6369745f706f22]), ([0x657a697372646461], [0x6574756c6f736261]), ([0x65706f6373], [0x31]), ([0x666564], [0x3532372b3937372b32303131]), ([0x6c6176], [0x444231397830]), ([0x676573], [0x30]), ([0x65707974], [0x62616c])],
  [([0x6469], [0x363935]), ([0x656d616e], [0x22444022]), ([0x657a697372646461], [0x6574756c6f736261]), ([0x746e65726170], [0x373935]), ([0x666564], [0x383831312b3031352b32303131]), ([0x666572], [0x323031312b32303131]), ([0x6c6176], [0x414231397830]), ([0x676573], [0x30]), ([0x65707974], [0x62616c])],
  [([0x6469], [0x373935]), ([0x656d616e], [0x2234355f656761705f38355f6b6369745f706f22]), ([0x657a697372646461], [0x6574756c6f736261]), ([0x65706f6373], [0x31]), ([0x666564], [0x3638392b3031352b32303131]), ([0x6c6176], [0x393831397830]), ([0x676573], [0x30]), ([0x65707974], [0x62616c])],
  [([0x6469], [0x383935]), ([0x656d616e], [0x22444022]), ([0x657a697372646461], [0x6574756c6f736261]), ([0x746e65726170], [0x393935]), ([0x666564], [0x3130382b3430372b32303131]), ([0x666572], [0x323031312b32303131]), ([0x6c6176], [0x363831397830]), ([0x676573], [0x30]), ([0x65707974], [0x62616c])],
  [([0x6469], [0x393935]), ([0x656d616e], [0x2234355f656761705f36355f6b6369745f706f22]), ([0x657a697372646461], [0x6574756c6f736261]), ([0x65706f6373], [0x31]), ([0x666564], [0x363832312b3430372b32303131]), ([0x6c6176], [0x353531397830]), ([0x676573], [0x30]), ([0x65707974], [0x62616c])],
  [([0x6469], [0x303036]), ([0x656d616e], [0x22444022]), ([0x657a697372646461], [0x6574756c6f736261]), ([0x746e65726170], [0x313036]), ([0x666564], [0x323230312b3132362b32303131]), ([0x666572], [0x323031312b32303131]), ([0x6c6176], [0x323531397830]), ([0x676573], [0x30]), ([0x65707974], [0x62616c])],
  [([0x6469], [0x313036]), ([0x656d616e], [0x2234355f656761705f34355f6b6369745f706f22]), ([0x657a697372646461], [0x6574756c6f736261]), ([0x65706f6373], [0x31]), ([0x666564], [0x313032312b3132362b32303131]), ([0x6c6176], [0x313231397830]), ([0x676573], [0x30]), ([0x65707974], [0x62616c])],
  [([0x6469], [0x323036]), ([0x656d616e], [0x2234355f656761705f32355f6b6369745f706f22]), ([0x657a697372646461], [0x6574756c6f736261]), ([0x65706f6373], [0x31]), ([0x666564], [0x3335312b3438382b32303131]), ([0x6c6176], [0x364630397830]), ([0x676573], [0x30]), ([0x65707974], [0x62616c])],
  [([0x6469], [0x333036]), ([0x656d616e], [0x2234355f656761705f30355f6b6369745f706f22]), ([0x657a697372646461], [0x6574756c6f736261]), ([0x65706f6373], [0x31]), ([0x666564], [0x3236392b3431312b32303131]), ([0x6c6176], [0x454330397830]), ([0x676573], [0x30]), ([0x65707974], [0x62616c])],
  [([0x6469], [0x343036]), ([0x656d616e], [0x2234355f656761705f38345f6b6369745f706f22]), ([0x657a697372646461], [0x6574756c6f736261]), ([0x65706f6373], [0x31]), ([0x666564], [0x3933342b363230312b32303131]), ([0x6c6176], [0x354130397830]), ([0x676573], [0x30]), ([0x65707974], [0x62616c])],
  [([0x6469], [0x353036]), ([0x656d616e], [0x2234355f656761705f36345f6b6369745f706f22]), ([0x657a697372646461], [0x6574756c6f736261]), ([0x65706f6373], [0x31]), ([0x666564], [0x343430312b3734362b32303131]), ([0x6c6176], [0x303830397830]), ([0x676573], [0x30]), ([0x65707974], [0x62616c])],
  [([0x6469], [0x363036]), ([0x656d616e], [0x2234355f656761705f34345f6b6369745f706f22]), ([0x657a697372646461], [0x6574756c6f736261]), ([0x65706f6373], [0x31]), ([0x666564], [0x3634352b3836322b32303131]), ([0x6c6176], [0x413530397830]), ([0x676573], [0x30]), ([0x65707974], [0x62616c])],
  [([0x6469], [0x373036]), ([0x656d616e], [0x2234355f656761705f32345f6b6369745f706f22]), ([0x657a697372646461], [0x6574756c6f736261]), ([0x65706f6373], [0x31]), ([0x666564], [0x37362b32362b32303131]), ([0x6c6176], [0x373330397830]), ([0x676573], [0x30]), ([0x65707974], [0x62616c])]]

/-- player/iivision.dbg, sym lines 608-639 -/
def symLines19 : List (List (List Nat × List Nat)) := [
  [([0x6469], [0x383036]), ([0x656d616e], [0x2234355f656761705f30345f6b6369745f706f22]), ([0x657a697372646461], [0x6574756c6f736261]), ([0x65706f6373], [0x31]), ([0x666564], [0x323232312b343131312b32303131]), ([0x6c6176], [0x343130397830]), ([0x676573], [0x30]), ([0x65707974], [0x62616c])],
  [([0x6469], [0x393036]), ([0x656d616e], [0x2234355f656761705f38335f6b6369745f706f22]), ([0x657a697372646461], [0x6574756c6f736261]), ([0x65706f6373], [0x31]), ([0x666564], [0x353633312b3930362b32303131]), ([0x6c6176], [0x344646387830]), ([0x676573], [0x30]), ([0x65707974], [0x62616c])],
  [([0x6469], [0x303136]), ([0x656d616e], [0x22444022]), ([0x657a697372646461], [0x6574756c6f736261]), ([0x746e65726170], [0x313136]), ([0x666564], [0x333932312b363332312b32303131]), ([0x666572], [0x323031312b32303131]), ([0x6c6176], [0x314646387830]), ([0x676573], [0x30]), ([0x65707974], [0x62616c])],
  [([0x6469], [0x313136]), ([0x656d616e], [0x2234355f656761705f36335f6b6369745f706f22]), ([0x657a697372646461], [0x6574756c6f736261]), ([0x65706f6373], [0x31]), ([0x666564], [0x3036382b363332312b32303131]), ([0x6c6176], [0x304346387830]), ([0x676573], [0x30]), ([0x65707974], [0x62616c])],
  [([0x6469], [0x323136]), ([0x656d616e], [0x2234355f656761705f34335f6b6369745f706f22]), ([0x657a697372646461], [0x6574756c6f736261]), ([0x65706f6373], [0x31]), ([0x666564], [0x343030312b363330312b32303131]), ([0x6c6176], [0x413946387830]), ([0x676573], [0x30]), ([0x65707974], [0x62616c])],
  [([0x6469], [0x333136]), ([0x656d616e], [0x2234355f656761705f32335f6b6369745f706f22]), ([0x657a697372646461], [0x6574756c6f736261]), ([0x65706f6373], [0x31]), ([0x666564], [0x3234362b393230312b32303131]), ([0x6c6176], [0x453746387830]), ([0x676573], [0x30]), ([0x65707974], [0x62616c])],
  [([0x6469], [0x343136]), ([0x656d616e], [0x2234355f656761705f30335f6b6369745f706f22]), ([0x657a697372646461], [0x6574756c6f736261]), ([0x65706f6373], [0x31]), ([0x666564], [0x373330312b373130312b32303131]), ([0x6c6176], [0x313646387830]), ([0x676573], [0x30]), ([0x65707974], [0x62616c])],
  [([0x6469], [0x353136]), ([0x656d616e], [0x2234355f656761705f38325f6b6369745f706f22]), ([0x657a697372646461], [0x6574756c6f736261]), ([0x65706f6373], [0x31]), ([0x666564], [0x3231322b3637312b32303131]), ([0x6c6176], [0x383446387830]), ([0x676573], [0x30]), ([0x65707974], [0x62616c])],
  [([0x6469], [0x363136]), ([0x656d616e], [0x2234355f656761705f36325f6b6369745f706f22]), ([0x657a697372646461], [0x6574756c6f736261]), ([0x65706f6373], [0x31]), ([0x666564], [0x3038352b3831322b32303131]), ([0x6c6176], [0x453246387830]), ([0x676573], [0x30]), ([0x65707974], [0x62616c])],
  [([0x6469], [0x373136]), ([0x656d616e], [0x2234355f656761705f34325f6b6369745f706f22]), ([0x657a697372646461], [0x6574756c6f736261]), ([0x65706f6373], [0x31]), ([0x666564], [0x3837362b333232312b32303131]), ([0x6c6176], [0x373146387830]), ([0x676573], [0x30]), ([0x65707974], [0x62616c])],
  [([0x6469], [0x383136]), ([0x656d616e], [0x2234355f656761705f32325f6b6369745f706f22]), ([0x657a697372646461], [0x6574756c6f736261]), ([0x65706f6373], [0x31]), ([0x666564], [0x323931312b373033312b32303131]), ([0x6c6176], [0x303046387830]), ([0x676573], [0x30]), ([0x65707974], [0x62616c])],
  [([0x6469], [0x393136]), ([0x656d616e], [0x2234355f656761705f30325f6b6369745f706f22]), ([0x657a697372646461], [0x6574756c6f736261]), ([0x65706f6373], [0x31]), ([0x666564], [0x32332b373732312b32303131]), ([0x6c6176], [0x434545387830]), ([0x676573], [0x30]), ([0x65707974], [0x62616c])],
  [([0x6469], [0x303236]), ([0x656d616e], [0x22444022]), ([0x657a697372646461], [0x6574756c6f736261]), ([0x746e65726170], [0x313236]), ([0x666564], [0x3430352b38392b32303131]), ([0x666572], [0x323031312b32303131]), ([0x6c6176], [0x394545387830]), ([0x676573], [0x30]), ([0x65707974], [0x62616c])],
  [([0x6469], [0x313236]), ([0x656d616e], [0x2234355f656761705f38315f6b6369745f706f22]), ([0x657a697372646461], [0x6574756c6f736261]), ([0x65706f6373], [0x31]), ([0x666564], [0x323032312b38392b32303131]), ([0x6c6176], [0x384245387830]), ([0x676573], [0x30]), ([0x65707974], [0x62616c])],
  [([0x6469], [0x323236]), ([0x656d616e], [0x2234355f656761705f36315f6b6369745f706f22]), ([0x657a697372646461], [0x6574756c6f736261]), ([0x65706f6373], [0x31]), ([0x666564], [0x3032382b3332392b32303131]), ([0x6c6176], [0x314145387830]), ([0x676573], [0x30]), ([0x65707974], [0x62616c])],
  [([0x6469], [0x333236]), ([0x656d616e], [0x2234355f656761705f34315f6b6369745f706f22]), ([0x657a697372646461], [0x6574756c6f736261]), ([0x65706f6373], [0x31]), ([0x666564], [0x33312b3430332b32303131]), ([0x6c6176], [0x313945387830]), ([0x676573], [0x30]), ([0x65707974], [0x62616c])],
  [([0x6469], [0x343236]), ([0x656d616e], [0x2234355f656761705f32315f6b6369745f706f22]), ([0x657a697372646461], [0x6574756c6f736261]), ([0x65706f6373], [0x31]), ([0x666564], [0x3736372b383431312b32303131]), ([0x6c6176], [0x303845387830]), ([0x676573], [0x30]), ([0x65707974], [0x62616c])],
  [([0x6469], [0x353236]), ([0x656d616e], [0x2234355f656761705f30315f6b6369745f706f22]), ([0x657a697372646461], [0x6574756c6f736261]), ([0x65706f6373], [0x31]), ([0x666564], [0x3334392b3334372b32303131]), ([0x6c6176], [0x333745387830]), ([0x676573], [0x30]), ([0x65707974], [0x62616c])],
  [([0x6469], [0x363236]), ([0x656d616e], [0x2234355f656761705f385f6b6369745f706f22]), ([0x657a697372646461], [0x6574756c6f736261]), ([0x65706f6373], [0x31]), ([0x666564], [0x3132382b3037332b32303131]), ([0x6c6176], [0x353645387830]), ([0x676573], [0x30]), ([0x65707974], [0x62616c])],
  [([0x6469], [0x373236]), ([0x656d616e], [0x22385f6c6961745f34355f656761705f6b6369745f706f5f22]), ([0x657a697372646461], [0x6574756c6f736261]), ([0x65706f6373], [0x31]), ([0x666564], [0x3432312b3033362b3737352b32303131]), ([0x6c6176], [0x463545387830]), ([0x676573], [0x30]), ([0x65707974], [0x62616c])],
  [([0x6469], [0x383236]), ([0x656d616e], [0x2232315f6c6961745f34355f656761705f6b6369745f706f5f22]), ([0x657a697372646461], [0x6574756c6f736261]), ([0x65706f6373], [0x31]), ([0x666564], [0x3432312b383430312b3737352b32303131]), ([0x666572], [0x32303131]), ([0x6c6176], [0x433545387830]), ([0x676573], [0x30]), ([0x65707974], [0x62616c])],
  [([0x6469], [0x393236]), ([0x656d616e], [0x22706d6a5f34355f656761705f365f6b6369745f706f5f22]), ([0x657a697372646461], [0x6574756c6f736261]), ([0x65706f6373], [0x31]), ([0x666564], [0x3735372b3737352b32303131]), ([0x666572], [0x323031312b323031312b32303131]), ([0x6c6176], [0x323645387830]), ([0x676573], [0x30]), ([0x65707974], [0x62616c])],
  [([0x6469], [0x303336]), ([0x656d616e], [0x2236315f6c6961745f34355f656761705f6b6369745f706f5f22]), ([0x657a697372646461], [0x6574756c6f736261]), ([0x65706f6373], [0x31]), ([0x666564], [0x3432312b3837312b3737352b32303131]), ([0x666572], [0x32303131]), ([0x6c6176], [0x393545387830]), ([0x676573], [0x30]), ([0x65707974], [0x62616c])],
  [([0x6469], [0x313336]), ([0x656d616e], [0x2230325f6c6961745f34355f656761705f6b6369745f706f5f22]), ([0x657a697372646461], [0x6574756c6f736261]), ([0x65706f6373], [0x31]), ([0x666564], [0x3432312b3238362b3737352b32303131]), ([0x666572], [0x323031312b32303131]), ([0x6c6176], [0x363545387830]), ([0x676573], [0x30]), ([0x65707974], [0x62616c])],
  [([0x6469], [0x323336]), ([0x656d616e], [0x2235325f6c6961745f34355f656761705f6b6369745f706f5f22]), ([0x657a697372646461], [0x6574756c6f736261]), ([0x65706f6373], [0x31]), ([0x666564], [0x3432312b353431312b3737352b32303131]), ([0x6c6176], [0x333545387830]), ([0x676573], [0x30]), ([0x65707974], [0x62616c])],
  [([0x6469], [0x333336]), ([0x656d616e], [0x2239325f6c6961745f34355f656761705f6b6369745f706f5f22]), ([0x657a697372646461], [0x6574756c6f736261]), ([0x65706f6373], [0x31]), ([0x666564], [0x3432312b343632312b3737352b32303131]), ([0x6c6176], [0x303545387830]), ([0x676573], [0x30]), ([0x65707974], [0x62616c])],
  [([0x6469], [0x343336]), ([0x656d616e], [0x2234335f6c6961745f34355f656761705f6b6369745f706f5f22]), ([0x657a697372646461], [0x6574756c6f736261]), ([0x65706f6373], [0x31]), ([0x666564], [0x3432312b3538342b3737352b32303131]), ([0x666572], [0x32303131]), ([0x6c6176], [0x443445387830]), ([0x676573], [0x30]), ([0x65707974], [0x62616c])],
  [([0x6469], [0x353336]), ([0x656d616e], [0x2238335f6c6961745f34355f656761705f6b6369745f706f5f22]), ([0x657a697372646461], [0x6574756c6f736261]), ([0x65706f6373], [0x31]), ([0x666564], [0x3432312b3435352b3737352b32303131]), ([0x666572], [0x32303131]), ([0x6c6176], [0x413445387830]), ([0x676573], [0x30]), ([0x65707974], [0x62616c])],
  [([0x6469], [0x363336]), ([0x656d616e], [0x2233345f6c6961745f34355f656761705f6b6369745f706f5f22]), ([0x657a697372646461], [0x6574756c6f736261]), ([0x65706f6373], [0x31]), ([0x666564], [0x3432312b383433312b3737352b32303131]), ([0x666572], [0x32303131]), ([0x6c6176], [0x373445387830]), ([0x676573], [0x30]), ([0x65707974], [0x62616c])],
  [([0x6469], [0x373336]), ([0x656d616e], [0x2237345f6c6961745f34355f656761705f6b6369745f706f5f22]), ([0x657a697372646461], [0x6574756c6f736261]), ([0x65706f6373], [0x31]), ([0x666564], [0x3432312b3637372b3737352b32303131]), ([0x6c6176], [0x343445387830]), ([0x676573], [0x30]), ([0x65707974], [0x62616c])],
  [([0x6469], [0x383336]), ([0x656d616e], [0x2232355f6c6961745f34355f656761705f6b6369745f706f5f22]), ([0x657a697372646461], [0x6574756c6f736261]), ([0x65706f6373], [0x31]), ([0x666564], [0x3432312b3137362b3737352b32303131]), ([0x666572], [0x32303131]), ([0x6c6176], [0x313445387830]), ([0x676573], [0x30]), ([0x65707974], [0x62616c])],
  [([0x6469], [0x393336]), ([0x656d616e], [0x2236355f6c6961745f34355f656761705f6b6369745f706f5f22]), ([0x657a697372646461], [0x6574756c6f736261]), ([0x65706f6373], [0x31]), ([0x666564], [0x3432312b3839342b3737352b32303131]), ([0x666572], [0x32303131]), ([0x6c6176], [0x453345387830]), ([0x676573], [0x30]), ([0x65707974], [0x62616c])]]

/-- player/iivision.dbg, sym lines 640-671 -/
def symLines20 : List (List (List Nat × List Nat)) := [
  [([0x6469], [0x303436]), ([0x656d616e], [0x2230365f6c6961745f34355f656761705f6b6369745f706f5f22]), ([0x657a697372646461], [0x6574756c6f736261]), ([0x65706f6373], [0x31]), ([0x666564], [0x3432312b353632312b3737352b32303131]), ([0x6c6176], [0x423345387830]), ([0x676573], [0x30]), ([0x65707974], [0x62616c])],
  [([0x6469], [0x313436]), ([0x656d616e], [0x2234355f656761705f365f6b6369745f706f22]), ([0x657a697372646461], [0x6574756c6f736261]), ([0x65706f6373], [0x31]), ([0x666564], [0x3432382b3737352b32303131]), ([0x6c6176], [0x323345387830]), ([0x676573], [0x30]), ([0x65707974], [0x62616c])],
  [([0x6469], [0x323436]), ([0x656d616e], [0x22375f6c6961745f34355f656761705f6b6369745f706f5f22]), ([0x657a697372646461], [0x6574756c6f736261]), ([0x65706f6373], [0x31]), ([0x666564], [0x3432312b3330392b3337332b32303131]), ([0x6c6176], [0x433245387830]), ([0x676573], [0x30]), ([0x65707974], [0x62616c])],
  [([0x6469], [0x333436]), ([0x656d616e], [0x2231315f6c6961745f34355f656761705f6b6369745f706f5f22]), ([0x657a697372646461], [0x6574756c6f736261]), ([0x65706f6373], [0x31]), ([0x666564], [0x3432312b333732312b3337332b32303131]), ([0x6c6176], [0x393245387830]), ([0x676573], [0x30]), ([0x65707974], [0x62616c])],
  [([0x6469], [0x343436]), ([0x656d616e], [0x22706d6a5f34355f656761705f345f6b6369745f706f5f22]), ([0x657a697372646461], [0x6574756c6f736261]), ([0x65706f6373], [0x31]), ([0x666564], [0x3134322b3337332b32303131]), ([0x666572], [0x323031312b32303131]), ([0x6c6176], [0x463245387830]), ([0x676573], [0x30]), ([0x65707974], [0x62616c])],
  [([0x6469], [0x353436]), ([0x656d616e], [0x2235315f6c6961745f34355f656761705f6b6369745f706f5f22]), ([0x657a697372646461], [0x6574756c6f736261]), ([0x65706f6373], [0x31]), ([0x666564], [0x3432312b3538352b3337332b32303131]), ([0x666572], [0x32303131]), ([0x6c6176], [0x363245387830]), ([0x676573], [0x30]), ([0x65707974], [0x62616c])],
  [([0x6469], [0x363436]), ([0x656d616e], [0x2239315f6c6961745f34355f656761705f6b6369745f706f5f22]), ([0x657a697372646461], [0x6574756c6f736261]), ([0x65706f6373], [0x31]), ([0x666564], [0x3432312b3737322b3337332b32303131]), ([0x666572], [0x32303131]), ([0x6c6176], [0x333245387830]), ([0x676573], [0x30]), ([0x65707974], [0x62616c])],
  [([0x6469], [0x373436]), ([0x656d616e], [0x2234325f6c6961745f34355f656761705f6b6369745f706f5f22]), ([0x657a697372646461], [0x6574756c6f736261]), ([0x65706f6373], [0x31]), ([0x666564], [0x3432312b3831352b3337332b32303131]), ([0x666572], [0x323031312b32303131]), ([0x6c6176], [0x303245387830]), ([0x676573], [0x30]), ([0x65707974], [0x62616c])],
  [([0x6469], [0x383436]), ([0x656d616e], [0x2238325f6c6961745f34355f656761705f6b6369745f706f5f22]), ([0x657a697372646461], [0x6574756c6f736261]), ([0x65706f6373], [0x31]), ([0x666564], [0x3432312b3436312b3337332b32303131]), ([0x666572], [0x32303131]), ([0x6c6176], [0x443145387830]), ([0x676573], [0x30]), ([0x65707974], [0x62616c])],
  [([0x6469], [0x393436]), ([0x656d616e], [0x2233335f6c6961745f34355f656761705f6b6369745f706f5f22]), ([0x657a697372646461], [0x6574756c6f736261]), ([0x65706f6373], [0x31]), ([0x666564], [0x3432312b3435312b3337332b32303131]), ([0x666572], [0x32303131]), ([0x6c6176], [0x413145387830]), ([0x676573], [0x30]), ([0x65707974], [0x62616c])],
  [([0x6469], [0x303536]), ([0x656d616e], [0x2237335f6c6961745f34355f656761705f6b6369745f706f5f22]), ([0x657a697372646461], [0x6574756c6f736261]), ([0x65706f6373], [0x31]), ([0x666564], [0x3432312b373532312b3337332b32303131]), ([0x666572], [0x32303131]), ([0x6c6176], [0x373145387830]), ([0x676573], [0x30]), ([0x65707974], [0x62616c])],
  [([0x6469], [0x313536]), ([0x656d616e], [0x2232345f6c6961745f34355f656761705f6b6369745f706f5f22]), ([0x657a697372646461], [0x6574756c6f736261]), ([0x65706f6373], [0x31]), ([0x666564], [0x3432312b323033312b3337332b32303131]), ([0x666572], [0x323031312b32303131]), ([0x6c6176], [0x343145387830]), ([0x676573], [0x30]), ([0x65707974], [0x62616c])],
  [([0x6469], [0x323536]), ([0x656d616e], [0x2236345f6c6961745f34355f656761705f6b6369745f706f5f22]), ([0x657a697372646461], [0x6574756c6f736261]), ([0x65706f6373], [0x31]), ([0x666564], [0x3432312b3530382b3337332b32303131]), ([0x666572], [0x32303131]), ([0x6c6176], [0x313145387830]), ([0x676573], [0x30]), ([0x65707974], [0x62616c])],
  [([0x6469], [0x333536]), ([0x656d616e], [0x2231355f6c6961745f34355f656761705f6b6369745f706f5f22]), ([0x657a697372646461], [0x6574756c6f736261]), ([0x65706f6373], [0x31]), ([0x666564], [0x3432312b343231312b3337332b32303131]), ([0x666572], [0x32303131]), ([0x6c6176], [0x453045387830]), ([0x676573], [0x30]), ([0x65707974], [0x62616c])],
  [([0x6469], [0x343536]), ([0x656d616e], [0x2235355f6c6961745f34355f656761705f6b6369745f706f5f22]), ([0x657a697372646461], [0x6574756c6f736261]), ([0x65706f6373], [0x31]), ([0x666564], [0x3432312b3332332b3337332b32303131]), ([0x666572], [0x32303131]), ([0x6c6176], [0x423045387830]), ([0x676573], [0x30]), ([0x65707974], [0x62616c])],
  [([0x6469], [0x353536]), ([0x656d616e], [0x2239355f6c6961745f34355f656761705f6b6369745f706f5f22]), ([0x657a697372646461], [0x6574756c6f736261]), ([0x65706f6373], [0x31]), ([0x666564], [0x3432312b323431312b3337332b32303131]), ([0x6c6176], [0x383045387830]), ([0x676573], [0x30]), ([0x65707974], [0x62616c])],
  [([0x6469], [0x363536]), ([0x656d616e], [0x2234355f656761705f345f6b6369745f706f22]), ([0x657a697372646461], [0x6574756c6f736261]), ([0x65706f6373], [0x31]), ([0x666564], [0x323630312b3337332b32303131]), ([0x6c6176], [0x454644387830]), ([0x676573], [0x30]), ([0x65707974], [0x62616c])],
  [([0x6469], [0x373536]), ([0x656d616e], [0x22444022]), ([0x657a697372646461], [0x6574756c6f736261]), ([0x746e65726170], [0x383536]), ([0x666564], [0x3435322b3833312b39383031]), ([0x666572], [0x393830312b39383031]), ([0x6c6176], [0x424644387830]), ([0x676573], [0x30]), ([0x65707974], [0x62616c])],
  [([0x6469], [0x383536]), ([0x656d616e], [0x2233355f656761705f36365f6b6369745f706f22]), ([0x657a697372646461], [0x6574756c6f736261]), ([0x65706f6373], [0x31]), ([0x666564], [0x3739362b3833312b39383031]), ([0x6c6176], [0x414344387830]), ([0x676573], [0x30]), ([0x65707974], [0x62616c])],
  [([0x6469], [0x393536]), ([0x656d616e], [0x22444022]), ([0x657a697372646461], [0x6574756c6f736261]), ([0x746e65726170], [0x303636]), ([0x666564], [0x3030372b313030312b39383031]), ([0x666572], [0x393830312b39383031]), ([0x6c6176], [0x374344387830]), ([0x676573], [0x30]), ([0x65707974], [0x62616c])],
  [([0x6469], [0x303636]), ([0x656d616e], [0x2233355f656761705f34365f6b6369745f706f22]), ([0x657a697372646461], [0x6574756c6f736261]), ([0x65706f6373], [0x31]), ([0x666564], [0x3937392b313030312b39383031]), ([0x6c6176], [0x363944387830]), ([0x676573], [0x30]), ([0x65707974], [0x62616c])],
  [([0x6469], [0x313636]), ([0x656d616e], [0x22444022]), ([0x657a697372646461], [0x6574756c6f736261]), ([0x746e65726170], [0x323636]), ([0x666564], [0x3033382b3436362b39383031]), ([0x666572], [0x393830312b39383031]), ([0x6c6176], [0x333944387830]), ([0x676573], [0x30]), ([0x65707974], [0x62616c])],
  [([0x6469], [0x323636]), ([0x656d616e], [0x2233355f656761705f32365f6b6369745f706f22]), ([0x657a697372646461], [0x6574756c6f736261]), ([0x65706f6373], [0x31]), ([0x666564], [0x3236322b3436362b39383031]), ([0x6c6176], [0x323644387830]), ([0x676573], [0x30]), ([0x65707974], [0x62616c])],
  [([0x6469], [0x333636]), ([0x656d616e], [0x22444022]), ([0x657a697372646461], [0x6574756c6f736261]), ([0x746e65726170], [0x343636]), ([0x666564], [0x3332382b3937372b39383031]), ([0x666572], [0x393830312b39383031]), ([0x6c6176], [0x463544387830]), ([0x676573], [0x30]), ([0x65707974], [0x62616c])],
  [([0x6469], [0x343636]), ([0x656d616e], [0x2233355f656761705f30365f6b6369745f706f22]), ([0x657a697372646461], [0x6574756c6f736261]), ([0x65706f6373], [0x31]), ([0x666564], [0x3532372b3937372b39383031]), ([0x6c6176], [0x453244387830]), ([0x676573], [0x30]), ([0x65707974], [0x62616c])],
  [([0x6469], [0x353636]), ([0x656d616e], [0x22444022]), ([0x657a697372646461], [0x6574756c6f736261]), ([0x746e65726170], [0x363636]), ([0x666564], [0x383831312b3031352b39383031]), ([0x666572], [0x393830312b39383031]), ([0x6c6176], [0x423244387830]), ([0x676573], [0x30]), ([0x65707974], [0x62616c])],
  [([0x6469], [0x363636]), ([0x656d616e], [0x2233355f656761705f38355f6b6369745f706f22]), ([0x657a697372646461], [0x6574756c6f736261]), ([0x65706f6373], [0x31]), ([0x666564], [0x3638392b3031352b39383031]), ([0x6c6176], [0x414643387830]), ([0x676573], [0x30]), ([0x65707974], [0x62616c])],
  [([0x6469], [0x373636]), ([0x656d616e], [0x22444022]), ([0x657a697372646461], [0x6574756c6f736261]), ([0x746e65726170], [0x383636]), ([0x666564], [0x3130382b3430372b39383031]), ([0x666572], [0x393830312b39383031]), ([0x6c6176], [0x374643387830]), ([0x676573], [0x30]), ([0x65707974], [0x62616c])],
  [([0x6469], [0x383636]), ([0x656d616e], [0x2233355f656761705f36355f6b6369745f706f22]), ([0x657a697372646461], [0x6574756c6f736261]), ([0x65706f6373], [0x31]), ([0x666564], [0x363832312b3430372b39383031]), ([0x6c6176], [0x364343387830]), ([0x676573], [0x30]), ([0x65707974], [0x62616c])],
  [([0x6469], [0x393636]), ([0x656d616e], [0x22444022]), ([0x657a697372646461], [0x6574756c6f736261]), ([0x746e65726170], [0x303736]), ([0x666564], [0x323230312b3132362b39383031]), ([0x666572], [0x393830312b39383031]), ([0x6c6176], [0x334343387830]), ([0x676573], [0x30]), ([0x65707974], [0x62616c])],
  [([0x6469], [0x303736]), ([0x656d616e], [0x2233355f656761705f34355f6b6369745f706f22]), ([0x657a697372646461], [0x6574756c6f736261]), ([0x65706f6373], [0x31]), ([0x666564], [0x313032312b3132362b39383031]), ([0x6c6176], [0x323943387830]), ([0x676573], [0x30]), ([0x65707974], [0x62616c])],
  [([0x6469], [0x313736]), ([0x656d616e], [0x2233355f656761705f32355f6b6369745f706f22]), ([0x657a697372646461], [0x6574756c6f736261]), ([0x65706f6373], [0x31]), ([0x666564], [0x3335312b3438382b39383031]), ([0x6c6176], [0x373643387830]), ([0x676573], [0x30]), ([0x65707974], [0x62616c])]]

/-- player/iivision.dbg, sym lines 672-703 -/
def symLines21 : List (List (List Nat × List Nat)) := [
  [([0x6469], [0x323736]), ([0x656d616e], [0x2233355f656761705f30355f6b6369745f706f22]), ([0x657a697372646461], [0x6574756c6f736261]), ([0x65706f6373], [0x31]), ([0x666564], [0x3236392b3431312b39383031]), ([0x6c6176], [0x463343387830]), ([0x676573], [0x30]), ([0x65707974], [0x62616c])],
  [([0x6469], [0x333736]), ([0x656d616e], [0x2233355f656761705f38345f6b6369745f706f22]), ([0x657a697372646461], [0x6574756c6f736261]), ([0x65706f6373], [0x31]), ([0x666564], [0x3933342b363230312b39383031]), ([0x6c6176], [0x363143387830]), ([0x676573], [0x30]), ([0x65707974], [0x62616c])],
  [([0x6469], [0x343736]), ([0x656d616e], [0x2233355f656761705f36345f6b6369745f706f22]), ([0x657a697372646461], [0x6574756c6f736261]), ([0x65706f6373], [0x31]), ([0x666564], [0x343430312b3734362b39383031]), ([0x6c6176], [0x314642387830]), ([0x676573], [0x30]), ([0x65707974], [0x62616c])],
  [([0x6469], [0x353736]), ([0x656d616e], [0x2233355f656761705f34345f6b6369745f706f22]), ([0x657a697372646461], [0x6574756c6f736261]), ([0x65706f6373], [0x31]), ([0x666564], [0x3634352b3836322b39383031]), ([0x6c6176], [0x424342387830]), ([0x676573], [0x30]), ([0x65707974], [0x62616c])],
  [([0x6469], [0x363736]), ([0x656d616e], [0x2233355f656761705f32345f6b6369745f706f22]), ([0x657a697372646461], [0x6574756c6f736261]), ([0x65706f6373], [0x31]), ([0x666564], [0x37362b32362b39383031]), ([0x6c6176], [0x384142387830]), ([0x676573], [0x30]), ([0x65707974], [0x62616c])],
  [([0x6469], [0x373736]), ([0x656d616e], [0x2233355f656761705f30345f6b6369745f706f22]), ([0x657a697372646461], [0x6574756c6f736261]), ([0x65706f6373], [0x31]), ([0x666564], [0x323232312b343131312b39383031]), ([0x6c6176], [0x353842387830]), ([0x676573], [0x30]), ([0x65707974], [0x62616c])],
  [([0x6469], [0x383736]), ([0x656d616e], [0x2233355f656761705f38335f6b6369745f706f22]), ([0x657a697372646461], [0x6574756c6f736261]), ([0x65706f6373], [0x31]), ([0x666564], [0x353633312b3930362b39383031]), ([0x6c6176], [0x353642387830]), ([0x676573], [0x30]), ([0x65707974], [0x62616c])],
  [([0x6469], [0x393736]), ([0x656d616e], [0x22444022]), ([0x657a697372646461], [0x6574756c6f736261]), ([0x746e65726170], [0x303836]), ([0x666564], [0x333932312b363332312b39383031]), ([0x666572], [0x393830312b39383031]), ([0x6c6176], [0x323642387830]), ([0x676573], [0x30]), ([0x65707974], [0x62616c])],
  [([0x6469], [0x303836]), ([0x656d616e], [0x2233355f656761705f36335f6b6369745f706f22]), ([0x657a697372646461], [0x6574756c6f736261]), ([0x65706f6373], [0x31]), ([0x666564], [0x3036382b363332312b39383031]), ([0x6c6176], [0x313342387830]), ([0x676573], [0x30]), ([0x65707974], [0x62616c])],
  [([0x6469], [0x313836]), ([0x656d616e], [0x2233355f656761705f34335f6b6369745f706f22]), ([0x657a697372646461], [0x6574756c6f736261]), ([0x65706f6373], [0x31]), ([0x666564], [0x343030312b363330312b39383031]), ([0x6c6176], [0x423042387830]), ([0x676573], [0x30]), ([0x65707974], [0x62616c])],
  [([0x6469], [0x323836]), ([0x656d616e], [0x2233355f656761705f32335f6b6369745f706f22]), ([0x657a697372646461], [0x6574756c6f736261]), ([0x65706f6373], [0x31]), ([0x666564], [0x3234362b393230312b39383031]), ([0x6c6176], [0x464541387830]), ([0x676573], [0x30]), ([0x65707974], [0x62616c])],
  [([0x6469], [0x333836]), ([0x656d616e], [0x2233355f656761705f30335f6b6369745f706f22]), ([0x657a697372646461], [0x6574756c6f736261]), ([0x65706f6373], [0x31]), ([0x666564], [0x373330312b373130312b39383031]), ([0x6c6176], [0x324441387830]), ([0x676573], [0x30]), ([0x65707974], [0x62616c])],
  [([0x6469], [0x343836]), ([0x656d616e], [0x2233355f656761705f38325f6b6369745f706f22]), ([0x657a697372646461], [0x6574756c6f736261]), ([0x65706f6373], [0x31]), ([0x666564], [0x3231322b3637312b39383031]), ([0x6c6176], [0x394241387830]), ([0x676573], [0x30]), ([0x65707974], [0x62616c])],
  [([0x6469], [0x353836]), ([0x656d616e], [0x2233355f656761705f36325f6b6369745f706f22]), ([0x657a697372646461], [0x6574756c6f736261]), ([0x65706f6373], [0x31]), ([0x666564], [0x3038352b3831322b39383031]), ([0x6c6176], [0x463941387830]), ([0x676573], [0x30]), ([0x65707974], [0x62616c])],
  [([0x6469], [0x363836]), ([0x656d616e], [0x2233355f656761705f34325f6b6369745f706f22]), ([0x657a697372646461], [0x6574756c6f736261]), ([0x65706f6373], [0x31]), ([0x666564], [0x3837362b333232312b39383031]), ([0x6c6176], [0x383841387830]), ([0x676573], [0x30]), ([0x65707974], [0x62616c])],
  [([0x6469], [0x373836]), ([0x656d616e], [0x2233355f656761705f32325f6b6369745f706f22]), ([0x657a697372646461], [0x6574756c6f736261]), ([0x65706f6373], [0x31]), ([0x666564], [0x323931312b373033312b39383031]), ([0x6c6176], [0x313741387830]), ([0x676573], [0x30]), ([0x65707974], [0x62616c])],
  [([0x6469], [0x383836]), ([0x656d616e], [0x2233355f656761705f30325f6b6369745f706f22]), ([0x657a697372646461], [0x6574756c6f736261]), ([0x65706f6373], [0x31]), ([0x666564], [0x32332b373732312b39383031]), ([0x6c6176], [0x443541387830]), ([0x676573], [0x30]), ([0x65707974], [0x62616c])],
  [([0x6469], [0x393836]), ([0x656d616e], [0x22444022]), ([0x657a697372646461], [0x6574756c6f736261]), ([0x746e65726170], [0x303936]), ([0x666564], [0x3430352b38392b39383031]), ([0x666572], [0x393830312b39383031]), ([0x6c6176], [0x413541387830]), ([0x676573], [0x30]), ([0x65707974], [0x62616c])],
  [([0x6469], [0x303936]), ([0x656d616e], [0x2233355f656761705f38315f6b6369745f706f22]), ([0x657a697372646461], [0x6574756c6f736261]), ([0x65706f6373], [0x31]), ([0x666564], [0x323032312b38392b39383031]), ([0x6c6176], [0x393241387830]), ([0x676573], [0x30]), ([0x65707974], [0x62616c])],
  [([0x6469], [0x313936]), ([0x656d616e], [0x2233355f656761705f36315f6b6369745f706f22]), ([0x657a697372646461], [0x6574756c6f736261]), ([0x65706f6373], [0x31]), ([0x666564], [0x3032382b3332392b39383031]), ([0x6c6176], [0x323141387830]), ([0x676573], [0x30]), ([0x65707974], [0x62616c])],
  [([0x6469], [0x323936]), ([0x656d616e], [0x2233355f656761705f34315f6b6369745f706f22]), ([0x657a697372646461], [0x6574756c6f736261]), ([0x65706f6373], [0x31]), ([0x666564], [0x33312b3430332b39383031]), ([0x6c6176], [0x323041387830]), ([0x676573], [0x30]), ([0x65707974], [0x62616c])],
  [([0x6469], [0x333936]), ([0x656d616e], [0x2233355f656761705f32315f6b6369745f706f22]), ([0x657a697372646461], [0x6574756c6f736261]), ([0x65706f6373], [0x31]), ([0x666564], [0x3736372b383431312b39383031]), ([0x6c6176], [0x314639387830]), ([0x676573], [0x30]), ([0x65707974], [0x62616c])],
  [([0x6469], [0x343936]), ([0x656d616e], [0x2233355f656761705f30315f6b6369745f706f22]), ([0x657a697372646461], [0x6574756c6f736261]), ([0x65706f6373], [0x31]), ([0x666564], [0x3334392b3334372b39383031]), ([0x6c6176], [0x344539387830]), ([0x676573], [0x30]), ([0x65707974], [0x62616c])],
  [([0x6469], [0x353936]), ([0x656d616e], [0x2233355f656761705f385f6b6369745f706f22]), ([0x657a697372646461], [0x6574756c6f736261]), ([0x65706f6373], [0x31]), ([0x666564], [0x3132382b3037332b39383031]), ([0x6c6176], [0x364439387830]), ([0x676573], [0x30]), ([0x65707974], [0x62616c])],
  [([0x6469], [0x363936]), ([0x656d616e], [0x22385f6c6961745f33355f656761705f6b6369745f706f5f22]), ([0x657a697372646461], [0x6574756c6f736261]), ([0x65706f6373], [0x31]), ([0x666564], [0x3432312b3033362b3737352b39383031]), ([0x6c6176], [0x304439387830]), ([0x676573], [0x30]), ([0x65707974], [0x62616c])],
  [([0x6469], [0x373936]), ([0x656d616e], [0x2232315f6c6961745f33355f656761705f6b6369745f706f5f22]), ([0x657a697372646461], [0x6574756c6f736261]), ([0x65706f6373], [0x31]), ([0x666564], [0x3432312b383430312b3737352b39383031]), ([0x666572], [0x39383031]), ([0x6c6176], [0x444339387830]), ([0x676573], [0x30]), ([0x65707974], [0x62616c])],
  [([0x6469], [0x383936]), ([0x656d616e], [0x22706d6a5f33355f656761705f365f6b6369745f706f5f22]), ([0x657a697372646461], [0x6574756c6f736261]), ([0x65706f6373], [0x31]), ([0x666564], [0x3735372b3737352b39383031]), ([0x666572], [0x393830312b393830312b39383031]), ([0x6c6176], [0x334439387830]), ([0x676573], [0x30]), ([0x65707974], [0x62616c])],
  [([0x6469], [0x393936]), ([0x656d616e], [0x2236315f6c6961745f33355f656761705f6b6369745f706f5f22]), ([0x657a697372646461], [0x6574756c6f736261]), ([0x65706f6373], [0x31]), ([0x666564], [0x3432312b3837312b3737352b39383031]), ([0x666572], [0x39383031]), ([0x6c6176], [0x414339387830]), ([0x676573], [0x30]), ([0x65707974], [0x62616c])],
  [([0x6469], [0x303037]), ([0x656d616e], [0x2230325f6c6961745f33355f656761705f6b6369745f706f5f22]), ([0x657a697372646461], [0x6574756c6f736261]), ([0x65706f6373], [0x31]), ([0x666564], [0x3432312b3238362b3737352b39383031]), ([0x666572], [0x393830312b39383031]), ([0x6c6176], [0x374339387830]), ([0x676573], [0x30]), ([0x65707974], [0x62616c])],
  [([0x6469], [0x313037]), ([0x656d616e], [0x2235325f6c6961745f33355f656761705f6b6369745f706f5f22]), ([0x657a697372646461], [0x6574756c6f736261]), ([0x65706f6373], [0x31]), ([0x666564], [0x3432312b353431312b3737352b39383031]), ([0x6c6176], [0x344339387830]), ([0x676573], [0x30]), ([0x65707974], [0x62616c])],
  [([0x6469], [0x323037]), ([0x656d616e], [0x2239325f6c6961745f33355f656761705f6b6369745f706f5f22]), ([0x657a697372646461], [0x6574756c6f736261]), ([0x65706f6373], [0x31]), ([0x666564], [0x3432312b343632312b3737352b39383031]), ([0x6c6176], [0x314339387830]), ([0x676573], [0x30]), ([0x65707974], [0x62616c])],
  [([0x6469], [0x333037]), ([0x656d616e], [0x2234335f6c6961745f33355f656761705f6b6369745f706f5f22]), ([0x657a697372646461], [0x6574756c6f736261]), ([0x65706f6373], [0x31]), ([0x666564], [0x3432312b3538342b3737352b39383031]), ([0x666572], [0x39383031]), ([0x6c6176], [0x454239387830]), ([0x676573], [0x30]), ([0x65707974], [0x62616c])]]

/-- player/iivision.dbg, sym lines 704-735 -/
def symLines22 : List (List (List Nat × List Nat)) := [
  [([0x6469], [0x343037]), ([0x656d616e], [0x2238335f6c6961745f33355f656761705f6b6369745f706f5f22]), ([0x657a697372646461], [0x6574756c6f736261]), ([0x65706f6373], [0x31]), ([0x666564], [0x3432312b3435352b3737352b39383031]), ([0x666572], [0x39383031]), ([0x6c6176], [0x424239387830]), ([0x676573], [0x30]), ([0x65707974], [0x62616c])],
  [([0x6469], [0x353037]), ([0x656d616e], [0x2233345f6c6961745f33355f656761705f6b6369745f706f5f22]), ([0x657a697372646461], [0x6574756c6f736261]), ([0x65706f6373], [0x31]), ([0x666564], [0x3432312b383433312b3737352b39383031]), ([0x666572], [0x39383031]), ([0x6c6176], [0x384239387830]), ([0x676573], [0x30]), ([0x65707974], [0x62616c])],
  [([0x6469], [0x363037]), ([0x656d616e], [0x2237345f6c6961745f33355f656761705f6b6369745f706f5f22]), ([0x657a697372646461], [0x6574756c6f736261]), ([0x65706f6373], [0x31]), ([0x666564], [0x3432312b3637372b3737352b39383031]), ([0x6c6176], [0x354239387830]), ([0x676573], [0x30]), ([0x65707974], [0x62616c])],
  [([0x6469], [0x373037]), ([0x656d616e], [0x2232355f6c6961745f33355f656761705f6b6369745f706f5f22]), ([0x657a697372646461], [0x6574756c6f736261]), ([0x65706f6373], [0x31]), ([0x666564], [0x3432312b3137362b3737352b39383031]), ([0x666572], [0x39383031]), ([0x6c6176], [0x324239387830]), ([0x676573], [0x30]), ([0x65707974], [0x62616c])],
  [([0x6469], [0x383037]), ([0x656d616e], [0x2236355f6c6961745f33355f656761705f6b6369745f706f5f22]), ([0x657a697372646461], [0x6574756c6f736261]), ([0x65706f6373], [0x31]), ([0x666564], [0x3432312b3839342b3737352b39383031]), ([0x666572], [0x39383031]), ([0x6c6176], [0x464139387830]), ([0x676573], [0x30]), ([0x65707974], [0x62616c])],
  [([0x6469], [0x393037]), ([0x656d616e], [0x2230365f6c6961745f33355f656761705f6b6369745f706f5f22]), ([0x657a697372646461], [0x6574756c6f736261]), ([0x65706f6373], [0x31]), ([0x666564], [0x3432312b353632312b3737352b39383031]), ([0x6c6176], [0x434139387830]), ([0x676573], [0x30]), ([0x65707974], [0x62616c])],
  [([0x6469], [0x303137]), ([0x656d616e], [0x2233355f656761705f365f6b6369745f706f22]), ([0x657a697372646461], [0x6574756c6f736261]), ([0x65706f6373], [0x31]), ([0x666564], [0x3432382b3737352b39383031]), ([0x6c6176], [0x334139387830]), ([0x676573], [0x30]), ([0x65707974], [0x62616c])],
  [([0x6469], [0x313137]), ([0x656d616e], [0x22375f6c6961745f33355f656761705f6b6369745f706f5f22]), ([0x657a697372646461], [0x6574756c6f736261]), ([0x65706f6373], [0x31]), ([0x666564], [0x3432312b3330392b3337332b39383031]), ([0x6c6176], [0x443939387830]), ([0x676573], [0x30]), ([0x65707974], [0x62616c])],
  [([0x6469], [0x323137]), ([0x656d616e], [0x2231315f6c6961745f33355f656761705f6b6369745f706f5f22]), ([0x657a697372646461], [0x6574756c6f736261]), ([0x65706f6373], [0x31]), ([0x666564], [0x3432312b333732312b3337332b39383031]), ([0x6c6176], [0x413939387830]), ([0x676573], [0x30]), ([0x65707974], [0x62616c])],
  [([0x6469], [0x333137]), ([0x656d616e], [0x22706d6a5f33355f656761705f345f6b6369745f706f5f22]), ([0x657a697372646461], [0x6574756c6f736261]), ([0x65706f6373], [0x31]), ([0x666564], [0x3134322b3337332b39383031]), ([0x666572], [0x393830312b39383031]), ([0x6c6176], [0x304139387830]), ([0x676573], [0x30]), ([0x65707974], [0x62616c])],
  [([0x6469], [0x343137]), ([0x656d616e], [0x2235315f6c6961745f33355f656761705f6b6369745f706f5f22]), ([0x657a697372646461], [0x6574756c6f736261]), ([0x65706f6373], [0x31]), ([0x666564], [0x3432312b3538352b3337332b39383031]), ([0x666572], [0x39383031]), ([0x6c6176], [0x373939387830]), ([0x676573], [0x30]), ([0x65707974], [0x62616c])],
  [([0x6469], [0x353137]), ([0x656d616e], [0x2239315f6c6961745f33355f656761705f6b6369745f706f5f22]), ([0x657a697372646461], [0x6574756c6f736261]), ([0x65706f6373], [0x31]), ([0x666564], [0x3432312b3737322b3337332b39383031]), ([0x666572], [0x39383031]), ([0x6c6176], [0x343939387830]), ([0x676573], [0x30]), ([0x65707974], [0x62616c])],
  [([0x6469], [0x363137]), ([0x656d616e], [0x2234325f6c6961745f33355f656761705f6b6369745f706f5f22]), ([0x657a697372646461], [0x6574756c6f736261]), ([0x65706f6373], [0x31]), ([0x666564], [0x3432312b3831352b3337332b39383031]), ([0x666572], [0x393830312b39383031]), ([0x6c6176], [0x313939387830]), ([0x676573], [0x30]), ([0x65707974], [0x62616c])],
  [([0x6469], [0x373137]), ([0x656d616e], [0x2238325f6c6961745f33355f656761705f6b6369745f706f5f22]), ([0x657a697372646461], [0x6574756c6f736261]), ([0x65706f6373], [0x31]), ([0x666564], [0x3432312b3436312b3337332b39383031]), ([0x666572], [0x39383031]), ([0x6c6176], [0x453839387830]), ([0x676573], [0x30]), ([0x65707974], [0x62616c])],
  [([0x6469], [0x383137]), ([0x656d616e], [0x2233335f6c6961745f33355f656761705f6b6369745f706f5f22]), ([0x657a697372646461], [0x6574756c6f736261]), ([0x65706f6373], [0x31]), ([0x666564], [0x3432312b3435312b3337332b39383031]), ([0x666572], [0x39383031]), ([0x6c6176], [0x423839387830]), ([0x676573], [0x30]), ([0x65707974], [0x62616c])],
  [([0x6469], [0x393137]), ([0x656d616e], [0x2237335f6c6961745f33355f656761705f6b6369745f706f5f22]), ([0x657a697372646461], [0x6574756c6f736261]), ([0x65706f6373], [0x31]), ([0x666564], [0x3432312b373532312b3337332b39383031]), ([0x666572], [0x39383031]), ([0x6c6176], [0x383839387830]), ([0x676573], [0x30]), ([0x65707974], [0x62616c])],
  [([0x6469], [0x303237]), ([0x656d616e], [0x2232345f6c6961745f33355f656761705f6b6369745f706f5f22]), ([0x657a697372646461], [0x6574756c6f736261]), ([0x65706f6373], [0x31]), ([0x666564], [0x3432312b323033312b3337332b39383031]), ([0x666572], [0x393830312b39383031]), ([0x6c6176], [0x353839387830]), ([0x676573], [0x30]), ([0x65707974], [0x62616c])],
  [([0x6469], [0x313237]), ([0x656d616e], [0x2236345f6c6961745f33355f656761705f6b6369745f706f5f22]), ([0x657a697372646461], [0x6574756c6f736261]), ([0x65706f6373], [0x31]), ([0x666564], [0x3432312b3530382b3337332b39383031]), ([0x666572], [0x39383031]), ([0x6c6176], [0x323839387830]), ([0x676573], [0x30]), ([0x65707974], [0x62616c])],
  [([0x6469], [0x323237]), ([0x656d616e], [0x2231355f6c6961745f33355f656761705f6b6369745f706f5f22]), ([0x657a697372646461], [0x6574756c6f736261]), ([0x65706f6373], [0x31]), ([0x666564], [0x3432312b343231312b3337332b39383031]), ([0x666572], [0x39383031]), ([0x6c6176], [0x463739387830]), ([0x676573], [0x30]), ([0x65707974], [0x62616c])],
  [([0x6469], [0x333237]), ([0x656d616e], [0x2235355f6c6961745f33355f656761705f6b6369745f706f5f22]), ([0x657a697372646461], [0x6574756c6f736261]), ([0x65706f6373], [0x31]), ([0x666564], [0x3432312b3332332b3337332b39383031]), ([0x666572], [0x39383031]), ([0x6c6176], [0x433739387830]), ([0x676573], [0x30]), ([0x65707974], [0x62616c])],
  [([0x6469], [0x343237]), ([0x656d616e], [0x2239355f6c6961745f33355f656761705f6b6369745f706f5f22]), ([0x657a697372646461], [0x6574756c6f736261]), ([0x65706f6373], [0x31]), ([0x666564], [0x3432312b323431312b3337332b39383031]), ([0x6c6176], [0x393739387830]), ([0x676573], [0x30]), ([0x65707974], [0x62616c])],
  [([0x6469], [0x353237]), ([0x656d616e], [0x2233355f656761705f345f6b6369745f706f22]), ([0x657a697372646461], [0x6574756c6f736261]), ([0x65706f6373], [0x31]), ([0x666564], [0x323630312b3337332b39383031]), ([0x6c6176], [0x463639387830]), ([0x676573], [0x30]), ([0x65707974], [0x62616c])],
  [([0x6469], [0x363237]), ([0x656d616e], [0x22444022]), ([0x657a697372646461], [0x6574756c6f736261]), ([0x746e65726170], [0x373237]), ([0x666564], [0x3435322b3833312b373737]), ([0x666572], [0x3737372b373737]), ([0x6c6176], [0x433639387830]), ([0x676573], [0x30]), ([0x65707974], [0x62616c])],
  [([0x6469], [0x373237]), ([0x656d616e], [0x2232355f656761705f36365f6b6369745f706f22]), ([0x657a697372646461], [0x6574756c6f736261]), ([0x65706f6373], [0x31]), ([0x666564], [0x3739362b3833312b373737]), ([0x6c6176], [0x423339387830]), ([0x676573], [0x30]), ([0x65707974], [0x62616c])],
  [([0x6469], [0x383237]), ([0x656d616e], [0x22444022]), ([0x657a697372646461], [0x6574756c6f736261]), ([0x746e65726170], [0x393237]), ([0x666564], [0x3030372b313030312b373737]), ([0x666572], [0x3737372b373737]), ([0x6c6176], [0x383339387830]), ([0x676573], [0x30]), ([0x65707974], [0x62616c])],
  [([0x6469], [0x393237]), ([0x656d616e], [0x2232355f656761705f34365f6b6369745f706f22]), ([0x657a697372646461], [0x6574756c6f736261]), ([0x65706f6373], [0x31]), ([0x666564], [0x3937392b313030312b373737]), ([0x6c6176], [0x373039387830]), ([0x676573], [0x30]), ([0x65707974], [0x62616c])],
  [([0x6469], [0x303337]), ([0x656d616e], [0x22444022]), ([0x657a697372646461], [0x6574756c6f736261]), ([0x746e65726170], [0x313337]), ([0x666564], [0x3033382b3436362b373737]), ([0x666572], [0x3737372b373737]), ([0x6c6176], [0x343039387830]), ([0x676573], [0x30]), ([0x65707974], [0x62616c])],
  [([0x6469], [0x313337]), ([0x656d616e], [0x2232355f656761705f32365f6b6369745f706f22]), ([0x657a697372646461], [0x6574756c6f736261]), ([0x65706f6373], [0x31]), ([0x666564], [0x3236322b3436362b373737]), ([0x6c6176], [0x334438387830]), ([0x676573], [0x30]), ([0x65707974], [0x62616c])],
  [([0x6469], [0x323337]), ([0x656d616e], [0x22444022]), ([0x657a697372646461], [0x6574756c6f736261]), ([0x746e65726170], [0x333337]), ([0x666564], [0x3332382b3937372b373737]), ([0x666572], [0x3737372b373737]), ([0x6c6176], [0x304438387830]), ([0x676573], [0x30]), ([0x65707974], [0x62616c])],
  [([0x6469], [0x333337]), ([0x656d616e], [0x2232355f656761705f30365f6b6369745f706f22]), ([0x657a697372646461], [0x6574756c6f736261]), ([0x65706f6373], [0x31]), ([0x666564], [0x3532372b3937372b373737]), ([0x6c6176], [0x463938387830]), ([0x676573], [0x30]), ([0x65707974], [0x62616c])],
  [([0x6469], [0x343337]), ([0x656d616e], [0x22444022]), ([0x657a697372646461], [0x6574756c6f736261]), ([0x746e65726170], [0x353337]), ([0x666564], [0x383831312b3031352b373737]), ([0x666572], [0x3737372b373737]), ([0x6c6176], [0x433938387830]), ([0x676573], [0x30]), ([0x65707974], [0x62616c])],
  [([0x6469], [0x353337]), ([0x656d616e], [0x2232355f656761705f38355f6b6369745f706f22]), ([0x657a697372646461], [0x6574756c6f736261]), ([0x65706f6373], [0x31]), ([0x666564], [0x3638392b3031352b373737]), ([0x6c6176], [0x423638387830]), ([0x676573], [0x30]), ([0x65707974], [0x62616c])]]

/-- player/iivision.dbg, sym lines 736-767 -/
def symLines23 : List (List (List Nat × List Nat)) := [
  [([0x6469], [0x363337]), ([0x656d616e], [0x22444022]), ([0x657a697372646461], [0x6574756c6f736261]), ([0x746e65726170], [0x373337]), ([0x666564], [0x3130382b3430372b373737]), ([0x666572], [0x3737372b373737]), ([0x6c6176], [0x383638387830]), ([0x676573], [0x30]), ([0x65707974], [0x62616c])],
  [([0x6469], [0x373337]), ([0x656d616e], [0x2232355f656761705f36355f6b6369745f706f22]), ([0x657a697372646461], [0x6574756c6f736261]), ([0x65706f6373], [0x31]), ([0x666564], [0x363832312b3430372b373737]), ([0x6c6176], [0x373338387830]), ([0x676573], [0x30]), ([0x65707974], [0x62616c])],
  [([0x6469], [0x383337]), ([0x656d616e], [0x22444022]), ([0x657a697372646461], [0x6574756c6f736261]), ([0x746e65726170], [0x393337]), ([0x666564], [0x323230312b3132362b373737]), ([0x666572], [0x3737372b373737]), ([0x6c6176], [0x343338387830]), ([0x676573], [0x30]), ([0x65707974], [0x62616c])],
  [([0x6469], [0x393337]), ([0x656d616e], [0x2232355f656761705f34355f6b6369745f706f22]), ([0x657a697372646461], [0x6574756c6f736261]), ([0x65706f6373], [0x31]), ([0x666564], [0x313032312b3132362b373737]), ([0x6c6176], [0x333038387830]), ([0x676573], [0x30]), ([0x65707974], [0x62616c])],
  [([0x6469], [0x303437]), ([0x656d616e], [0x2232355f656761705f32355f6b6369745f706f22]), ([0x657a697372646461], [0x6574756c6f736261]), ([0x65706f6373], [0x31]), ([0x666564], [0x3335312b3438382b373737]), ([0x6c6176], [0x384437387830]), ([0x676573], [0x30]), ([0x65707974], [0x62616c])],
  [([0x6469], [0x313437]), ([0x656d616e], [0x2232355f656761705f30355f6b6369745f706f22]), ([0x657a697372646461], [0x6574756c6f736261]), ([0x65706f6373], [0x31]), ([0x666564], [0x3236392b3431312b373737]), ([0x6c6176], [0x304237387830]), ([0x676573], [0x30]), ([0x65707974], [0x62616c])],
  [([0x6469], [0x323437]), ([0x656d616e], [0x2232355f656761705f38345f6b6369745f706f22]), ([0x657a697372646461], [0x6574756c6f736261]), ([0x65706f6373], [0x31]), ([0x666564], [0x3933342b363230312b373737]), ([0x6c6176], [0x373837387830]), ([0x676573], [0x30]), ([0x65707974], [0x62616c])],
  [([0x6469], [0x333437]), ([0x656d616e], [0x2232355f656761705f36345f6b6369745f706f22]), ([0x657a697372646461], [0x6574756c6f736261]), ([0x65706f6373], [0x31]), ([0x666564], [0x343430312b3734362b373737]), ([0x6c6176], [0x323637387830]), ([0x676573], [0x30]), ([0x65707974], [0x62616c])],
  [([0x6469], [0x343437]), ([0x656d616e], [0x2232355f656761705f34345f6b6369745f706f22]), ([0x657a697372646461], [0x6574756c6f736261]), ([0x65706f6373], [0x31]), ([0x666564], [0x3634352b3836322b373737]), ([0x6c6176], [0x433337387830]), ([0x676573], [0x30]), ([0x65707974], [0x62616c])],
  [([0x6469], [0x353437]), ([0x656d616e], [0x2232355f656761705f32345f6b6369745f706f22]), ([0x657a697372646461], [0x6574756c6f736261]), ([0x65706f6373], [0x31]), ([0x666564], [0x37362b32362b373737]), ([0x6c6176], [0x393137387830]), ([0x676573], [0x30]), ([0x65707974], [0x62616c])],
  [([0x6469], [0x363437]), ([0x656d616e], [0x2232355f656761705f30345f6b6369745f706f22]), ([0x657a697372646461], [0x6574756c6f736261]), ([0x65706f6373], [0x31]), ([0x666564], [0x323232312b343131312b373737]), ([0x6c6176], [0x364636387830]), ([0x676573], [0x30]), ([0x65707974], [0x62616c])],
  [([0x6469], [0x373437]), ([0x656d616e], [0x2232355f656761705f38335f6b6369745f706f22]), ([0x657a697372646461], [0x6574756c6f736261]), ([0x65706f6373], [0x31]), ([0x666564], [0x353633312b3930362b373737]), ([0x6c6176], [0x364436387830]), ([0x676573], [0x30]), ([0x65707974], [0x62616c])],
  [([0x6469], [0x383437]), ([0x656d616e], [0x22444022]), ([0x657a697372646461], [0x6574756c6f736261]), ([0x746e65726170], [0x393437]), ([0x666564], [0x333932312b363332312b373737]), ([0x666572], [0x3737372b373737]), ([0x6c6176], [0x334436387830]), ([0x676573], [0x30]), ([0x65707974], [0x62616c])],
  [([0x6469], [0x393437]), ([0x656d616e], [0x2232355f656761705f36335f6b6369745f706f22]), ([0x657a697372646461], [0x6574756c6f736261]), ([0x65706f6373], [0x31]), ([0x666564], [0x3036382b363332312b373737]), ([0x6c6176], [0x324136387830]), ([0x676573], [0x30]), ([0x65707974], [0x62616c])],
  [([0x6469], [0x303537]), ([0x656d616e], [0x2232355f656761705f34335f6b6369745f706f22]), ([0x657a697372646461], [0x6574756c6f736261]), ([0x65706f6373], [0x31]), ([0x666564], [0x343030312b363330312b373737]), ([0x6c6176], [0x433736387830]), ([0x676573], [0x30]), ([0x65707974], [0x62616c])],
  [([0x6469], [0x313537]), ([0x656d616e], [0x2232355f656761705f32335f6b6369745f706f22]), ([0x657a697372646461], [0x6574756c6f736261]), ([0x65706f6373], [0x31]), ([0x666564], [0x3234362b393230312b373737]), ([0x6c6176], [0x303636387830]), ([0x676573], [0x30]), ([0x65707974], [0x62616c])],
  [([0x6469], [0x323537]), ([0x656d616e], [0x2232355f656761705f30335f6b6369745f706f22]), ([0x657a697372646461], [0x6574756c6f736261]), ([0x65706f6373], [0x31]), ([0x666564], [0x373330312b373130312b373737]), ([0x6c6176], [0x333436387830]), ([0x676573], [0x30]), ([0x65707974], [0x62616c])],
  [([0x6469], [0x333537]), ([0x656d616e], [0x2232355f656761705f38325f6b6369745f706f22]), ([0x657a697372646461], [0x6574756c6f736261]), ([0x65706f6373], [0x31]), ([0x666564], [0x3231322b3637312b373737]), ([0x6c6176], [0x413236387830]), ([0x676573], [0x30]), ([0x65707974], [0x62616c])],
  [([0x6469], [0x343537]), ([0x656d616e], [0x2232355f656761705f36325f6b6369745f706f22]), ([0x657a697372646461], [0x6574756c6f736261]), ([0x65706f6373], [0x31]), ([0x666564], [0x3038352b3831322b373737]), ([0x6c6176], [0x303136387830]), ([0x676573], [0x30]), ([0x65707974], [0x62616c])],
  [([0x6469], [0x353537]), ([0x656d616e], [0x2232355f656761705f34325f6b6369745f706f22]), ([0x657a697372646461], [0x6574756c6f736261]), ([0x65706f6373], [0x31]), ([0x666564], [0x3837362b333232312b373737]), ([0x6c6176], [0x394635387830]), ([0x676573], [0x30]), ([0x65707974], [0x62616c])],
  [([0x6469], [0x363537]), ([0x656d616e], [0x2232355f656761705f32325f6b6369745f706f22]), ([0x657a697372646461], [0x6574756c6f736261]), ([0x65706f6373], [0x31]), ([0x666564], [0x323931312b373033312b373737]), ([0x6c6176], [0x324535387830]), ([0x676573], [0x30]), ([0x65707974], [0x62616c])],
  [([0x6469], [0x373537]), ([0x656d616e], [0x2232355f656761705f30325f6b6369745f706f22]), ([0x657a697372646461], [0x6574756c6f736261]), ([0x65706f6373], [0x31]), ([0x666564], [0x32332b373732312b373737]), ([0x6c6176], [0x454335387830]), ([0x676573], [0x30]), ([0x65707974], [0x62616c])],
  [([0x6469], [0x383537]), ([0x656d616e], [0x22444022]), ([0x657a697372646461], [0x6574756c6f736261]), ([0x746e65726170], [0x393537]), ([0x666564], [0x3430352b38392b373737]), ([0x666572], [0x3737372b373737]), ([0x6c6176], [0x424335387830]), ([0x676573], [0x30]), ([0x65707974], [0x62616c])],
  [([0x6469], [0x393537]), ([0x656d616e], [0x2232355f656761705f38315f6b6369745f706f22]), ([0x657a697372646461], [0x6574756c6f736261]), ([0x65706f6373], [0x31]), ([0x666564], [0x323032312b38392b373737]), ([0x6c6176], [0x413935387830]), ([0x676573], [0x30]), ([0x65707974], [0x62616c])],
  [([0x6469], [0x303637]), ([0x656d616e], [0x2232355f656761705f36315f6b6369745f706f22]), ([0x657a697372646461], [0x6574756c6f736261]), ([0x65706f6373], [0x31]), ([0x666564], [0x3032382b3332392b373737]), ([0x6c6176], [0x333835387830]), ([0x676573], [0x30]), ([0x65707974], [0x62616c])],
  [([0x6469], [0x313637]), ([0x656d616e], [0x2232355f656761705f34315f6b6369745f706f22]), ([0x657a697372646461], [0x6574756c6f736261]), ([0x65706f6373], [0x31]), ([0x666564], [0x33312b3430332b373737]), ([0x6c6176], [0x333735387830]), ([0x676573], [0x30]), ([0x65707974], [0x62616c])],
  [([0x6469], [0x323637]), ([0x656d616e], [0x2232355f656761705f32315f6b6369745f706f22]), ([0x657a697372646461], [0x6574756c6f736261]), ([0x65706f6373], [0x31]), ([0x666564], [0x3736372b383431312b373737]), ([0x6c6176], [0x323635387830]), ([0x676573], [0x30]), ([0x65707974], [0x62616c])],
  [([0x6469], [0x333637]), ([0x656d616e], [0x2232355f656761705f30315f6b6369745f706f22]), ([0x657a697372646461], [0x6574756c6f736261]), ([0x65706f6373], [0x31]), ([0x666564], [0x3334392b3334372b373737]), ([0x6c6176], [0x353535387830]), ([0x676573], [0x30]), ([0x65707974], [0x62616c])],
  [([0x6469], [0x343637]), ([0x656d616e], [0x2232355f656761705f385f6b6369745f706f22]), ([0x657a697372646461], [0x6574756c6f736261]), ([0x65706f6373], [0x31]), ([0x666564], [0x3132382b3037332b373737]), ([0x6c6176], [0x373435387830]), ([0x676573], [0x30]), ([0x65707974], [0x62616c])],
  [([0x6469], [0x353637]), ([0x656d616e], [0x22385f6c6961745f32355f656761705f6b6369745f706f5f22]), ([0x657a697372646461], [0x6574756c6f736261]), ([0x65706f6373], [0x31]), ([0x666564], [0x3432312b3033362b3737352b373737]), ([0x6c6176], [0x313435387830]), ([0x676573], [0x30]), ([0x65707974], [0x62616c])],
  [([0x6469], [0x363637]), ([0x656d616e], [0x2232315f6c6961745f32355f656761705f6b6369745f706f5f22]), ([0x657a697372646461], [0x6574756c6f736261]), ([0x65706f6373], [0x31]), ([0x666564], [0x3432312b383430312b3737352b373737]), ([0x666572], [0x373737]), ([0x6c6176], [0x453335387830]), ([0x676573], [0x30]), ([0x65707974], [0x62616c])],
  [([0x6469], [0x373637]), ([0x656d616e], [0x22706d6a5f32355f656761705f365f6b6369745f706f5f22]), ([0x657a697372646461], [0x6574756c6f736261]), ([0x65706f6373], [0x31]), ([0x666564], [0x3735372b3737352b373737]), ([0x666572], [0x3737372b3737372b373737]), ([0x6c6176], [0x343435387830]), ([0x676573], [0x30]), ([0x65707974], [0x62616c])]]

/-- player/iivision.dbg, sym lines 768-799 -/
def symLines24 : List (List (List Nat × List Nat)) := [
  [([0x6469], [0x383637]), ([0x656d616e], [0x2236315f6c6961745f32355f656761705f6b6369745f706f5f22]), ([0x657a697372646461], [0x6574756c6f736261]), ([0x65706f6373], [0x31]), ([0x666564], [0x3432312b3837312b3737352b373737]), ([0x666572], [0x373737]), ([0x6c6176], [0x423335387830]), ([0x676573], [0x30]), ([0x65707974], [0x62616c])],
  [([0x6469], [0x393637]), ([0x656d616e], [0x2230325f6c6961745f32355f656761705f6b6369745f706f5f22]), ([0x657a697372646461], [0x6574756c6f736261]), ([0x65706f6373], [0x31]), ([0x666564], [0x3432312b3238362b3737352b373737]), ([0x666572], [0x3737372b373737]), ([0x6c6176], [0x383335387830]), ([0x676573], [0x30]), ([0x65707974], [0x62616c])],
  [([0x6469], [0x303737]), ([0x656d616e], [0x2235325f6c6961745f32355f656761705f6b6369745f706f5f22]), ([0x657a697372646461], [0x6574756c6f736261]), ([0x65706f6373], [0x31]), ([0x666564], [0x3432312b353431312b3737352b373737]), ([0x6c6176], [0x353335387830]), ([0x676573], [0x30]), ([0x65707974], [0x62616c])],
  [([0x6469], [0x313737]), ([0x656d616e], [0x2239325f6c6961745f32355f656761705f6b6369745f706f5f22]), ([0x657a697372646461], [0x6574756c6f736261]), ([0x65706f6373], [0x31]), ([0x666564], [0x3432312b343632312b3737352b373737]), ([0x6c6176], [0x323335387830]), ([0x676573], [0x30]), ([0x65707974], [0x62616c])],
  [([0x6469], [0x323737]), ([0x656d616e], [0x2234335f6c6961745f32355f656761705f6b6369745f706f5f22]), ([0x657a697372646461], [0x6574756c6f736261]), ([0x65706f6373], [0x31]), ([0x666564], [0x3432312b3538342b3737352b373737]), ([0x666572], [0x373737]), ([0x6c6176], [0x463235387830]), ([0x676573], [0x30]), ([0x65707974], [0x62616c])],
  [([0x6469], [0x333737]), ([0x656d616e], [0x2238335f6c6961745f32355f656761705f6b6369745f706f5f22]), ([0x657a697372646461], [0x6574756c6f736261]), ([0x65706f6373], [0x31]), ([0x666564], [0x3432312b3435352b3737352b373737]), ([0x666572], [0x373737]), ([0x6c6176], [0x433235387830]), ([0x676573], [0x30]), ([0x65707974], [0x62616c])],
  [([0x6469], [0x343737]), ([0x656d616e], [0x2233345f6c6961745f32355f656761705f6b6369745f706f5f22]), ([0x657a697372646461], [0x6574756c6f736261]), ([0x65706f6373], [0x31]), ([0x666564], [0x3432312b383433312b3737352b373737]), ([0x666572], [0x373737]), ([0x6c6176], [0x393235387830]), ([0x676573], [0x30]), ([0x65707974], [0x62616c])],
  [([0x6469], [0x353737]), ([0x656d616e], [0x2237345f6c6961745f32355f656761705f6b6369745f706f5f22]), ([0x657a697372646461], [0x6574756c6f736261]), ([0x65706f6373], [0x31]), ([0x666564], [0x3432312b3637372b3737352b373737]), ([0x6c6176], [0x363235387830]), ([0x676573], [0x30]), ([0x65707974], [0x62616c])],
  [([0x6469], [0x363737]), ([0x656d616e], [0x2232355f6c6961745f32355f656761705f6b6369745f706f5f22]), ([0x657a697372646461], [0x6574756c6f736261]), ([0x65706f6373], [0x31]), ([0x666564], [0x3432312b3137362b3737352b373737]), ([0x666572], [0x373737]), ([0x6c6176], [0x333235387830]), ([0x676573], [0x30]), ([0x65707974], [0x62616c])],
  [([0x6469], [0x373737]), ([0x656d616e], [0x2236355f6c6961745f32355f656761705f6b6369745f706f5f22]), ([0x657a697372646461], [0x6574756c6f736261]), ([0x65706f6373], [0x31]), ([0x666564], [0x3432312b3839342b3737352b373737]), ([0x666572], [0x373737]), ([0x6c6176], [0x303235387830]), ([0x676573], [0x30]), ([0x65707974], [0x62616c])],
  [([0x6469], [0x383737]), ([0x656d616e], [0x2230365f6c6961745f32355f656761705f6b6369745f706f5f22]), ([0x657a697372646461], [0x6574756c6f736261]), ([0x65706f6373], [0x31]), ([0x666564], [0x3432312b353632312b3737352b373737]), ([0x6c6176], [0x443135387830]), ([0x676573], [0x30]), ([0x65707974], [0x62616c])],
  [([0x6469], [0x393737]), ([0x656d616e], [0x2232355f656761705f365f6b6369745f706f22]), ([0x657a697372646461], [0x6574756c6f736261]), ([0x65706f6373], [0x31]), ([0x666564], [0x3432382b3737352b373737]), ([0x6c6176], [0x343135387830]), ([0x676573], [0x30]), ([0x65707974], [0x62616c])],
  [([0x6469], [0x303837]), ([0x656d616e], [0x22375f6c6961745f32355f656761705f6b6369745f706f5f22]), ([0x657a697372646461], [0x6574756c6f736261]), ([0x65706f6373], [0x31]), ([0x666564], [0x3432312b3330392b3337332b373737]), ([0x6c6176], [0x453035387830]), ([0x676573], [0x30]), ([0x65707974], [0x62616c])],
  [([0x6469], [0x313837]), ([0x656d616e], [0x2231315f6c6961745f32355f656761705f6b6369745f706f5f22]), ([0x657a697372646461], [0x6574756c6f736261]), ([0x65706f6373], [0x31]), ([0x666564], [0x3432312b333732312b3337332b373737]), ([0x6c6176], [0x423035387830]), ([0x676573], [0x30]), ([0x65707974], [0x62616c])],
  [([0x6469], [0x323837]), ([0x656d616e], [0x22706d6a5f32355f656761705f345f6b6369745f706f5f22]), ([0x657a697372646461], [0x6574756c6f736261]), ([0x65706f6373], [0x31]), ([0x666564], [0x3134322b3337332b373737]), ([0x666572], [0x3737372b373737]), ([0x6c6176], [0x313135387830]), ([0x676573], [0x30]), ([0x65707974], [0x62616c])],
  [([0x6469], [0x333837]), ([0x656d616e], [0x2235315f6c6961745f32355f656761705f6b6369745f706f5f22]), ([0x657a697372646461], [0x6574756c6f736261]), ([0x65706f6373], [0x31]), ([0x666564], [0x3432312b3538352b3337332b373737]), ([0x666572], [0x373737]), ([0x6c6176], [0x383035387830]), ([0x676573], [0x30]), ([0x65707974], [0x62616c])],
  [([0x6469], [0x343837]), ([0x656d616e], [0x2239315f6c6961745f32355f656761705f6b6369745f706f5f22]), ([0x657a697372646461], [0x6574756c6f736261]), ([0x65706f6373], [0x31]), ([0x666564], [0x3432312b3737322b3337332b373737]), ([0x666572], [0x373737]), ([0x6c6176], [0x353035387830]), ([0x676573], [0x30]), ([0x65707974], [0x62616c])],
  [([0x6469], [0x353837]), ([0x656d616e], [0x2234325f6c6961745f32355f656761705f6b6369745f706f5f22]), ([0x657a697372646461], [0x6574756c6f736261]), ([0x65706f6373], [0x31]), ([0x666564], [0x3432312b3831352b3337332b373737]), ([0x666572], [0x3737372b373737]), ([0x6c6176], [0x323035387830]), ([0x676573], [0x30]), ([0x65707974], [0x62616c])],
  [([0x6469], [0x363837]), ([0x656d616e], [0x2238325f6c6961745f32355f656761705f6b6369745f706f5f22]), ([0x657a697372646461], [0x6574756c6f736261]), ([0x65706f6373], [0x31]), ([0x666564], [0x3432312b3436312b3337332b373737]), ([0x666572], [0x373737]), ([0x6c6176], [0x464634387830]), ([0x676573], [0x30]), ([0x65707974], [0x62616c])],
  [([0x6469], [0x373837]), ([0x656d616e], [0x2233335f6c6961745f32355f656761705f6b6369745f706f5f22]), ([0x657a697372646461], [0x6574756c6f736261]), ([0x65706f6373], [0x31]), ([0x666564], [0x3432312b3435312b3337332b373737]), ([0x666572], [0x373737]), ([0x6c6176], [0x434634387830]), ([0x676573], [0x30]), ([0x65707974], [0x62616c])],
  [([0x6469], [0x383837]), ([0x656d616e], [0x2237335f6c6961745f32355f656761705f6b6369745f706f5f22]), ([0x657a697372646461], [0x6574756c6f736261]), ([0x65706f6373], [0x31]), ([0x666564], [0x3432312b373532312b3337332b373737]), ([0x666572], [0x373737]), ([0x6c6176], [0x394634387830]), ([0x676573], [0x30]), ([0x65707974], [0x62616c])],
  [([0x6469], [0x393837]), ([0x656d616e], [0x2232345f6c6961745f32355f656761705f6b6369745f706f5f22]), ([0x657a697372646461], [0x6574756c6f736261]), ([0x65706f6373], [0x31]), ([0x666564], [0x3432312b323033312b3337332b373737]), ([0x666572], [0x3737372b373737]), ([0x6c6176], [0x364634387830]), ([0x676573], [0x30]), ([0x65707974], [0x62616c])],
  [([0x6469], [0x303937]), ([0x656d616e], [0x2236345f6c6961745f32355f656761705f6b6369745f706f5f22]), ([0x657a697372646461], [0x6574756c6f736261]), ([0x65706f6373], [0x31]), ([0x666564], [0x3432312b3530382b3337332b373737]), ([0x666572], [0x373737]), ([0x6c6176], [0x334634387830]), ([0x676573], [0x30]), ([0x65707974], [0x62616c])],
  [([0x6469], [0x313937]), ([0x656d616e], [0x2231355f6c6961745f32355f656761705f6b6369745f706f5f22]), ([0x657a697372646461], [0x6574756c6f736261]), ([0x65706f6373], [0x31]), ([0x666564], [0x3432312b343231312b3337332b373737]), ([0x666572], [0x373737]), ([0x6c6176], [0x304634387830]), ([0x676573], [0x30]), ([0x65707974], [0x62616c])],
  [([0x6469], [0x323937]), ([0x656d616e], [0x2235355f6c6961745f32355f656761705f6b6369745f706f5f22]), ([0x657a697372646461], [0x6574756c6f736261]), ([0x65706f6373], [0x31]), ([0x666564], [0x3432312b3332332b3337332b373737]), ([0x666572], [0x373737]), ([0x6c6176], [0x444534387830]), ([0x676573], [0x30]), ([0x65707974], [0x62616c])],
  [([0x6469], [0x333937]), ([0x656d616e], [0x2239355f6c6961745f32355f656761705f6b6369745f706f5f22]), ([0x657a697372646461], [0x6574756c6f736261]), ([0x65706f6373], [0x31]), ([0x666564], [0x3432312b323431312b3337332b373737]), ([0x6c6176], [0x414534387830]), ([0x676573], [0x30]), ([0x65707974], [0x62616c])],
  [([0x6469], [0x343937]), ([0x656d616e], [0x2232355f656761705f345f6b6369745f706f22]), ([0x657a697372646461], [0x6574756c6f736261]), ([0x65706f6373], [0x31]), ([0x666564], [0x323630312b3337332b373737]), ([0x6c6176], [0x304534387830]), ([0x676573], [0x30]), ([0x65707974], [0x62616c])],
  [([0x6469], [0x353937]), ([0x656d616e], [0x22444022]), ([0x657a697372646461], [0x6574756c6f736261]), ([0x746e65726170], [0x363937]), ([0x666564], [0x3435322b3833312b303031]), ([0x666572], [0x3030312b303031]), ([0x6c6176], [0x444434387830]), ([0x676573], [0x30]), ([0x65707974], [0x62616c])],
  [([0x6469], [0x363937]), ([0x656d616e], [0x2231355f656761705f36365f6b6369745f706f22]), ([0x657a697372646461], [0x6574756c6f736261]), ([0x65706f6373], [0x31]), ([0x666564], [0x3739362b3833312b303031]), ([0x6c6176], [0x434134387830]), ([0x676573], [0x30]), ([0x65707974], [0x62616c])],
  [([0x6469], [0x373937]), ([0x656d616e], [0x22444022]), ([0x657a697372646461], [0x6574756c6f736261]), ([0x746e65726170], [0x383937]), ([0x666564], [0x3030372b313030312b303031]), ([0x666572], [0x3030312b303031]), ([0x6c6176], [0x394134387830]), ([0x676573], [0x30]), ([0x65707974], [0x62616c])],
  [([0x6469], [0x383937]), ([0x656d616e], [0x2231355f656761705f34365f6b6369745f706f22]), ([0x657a697372646461], [0x6574756c6f736261]), ([0x65706f6373], [0x31]), ([0x666564], [0x3937392b313030312b303031]), ([0x6c6176], [0x383734387830]), ([0x676573], [0x30]), ([0x65707974], [0x62616c])],
  [([0x6469], [0x393937]), ([0x656d616e], [0x22444022]), ([0x657a697372646461], [0x6574756c6f736261]), ([0x746e65726170], [0x303038]), ([0x666564], [0x3033382b3436362b303031]), ([0x666572], [0x3030312b303031]), ([0x6c6176], [0x353734387830]), ([0x676573], [0x30]), ([0x65707974], [0x62616c])]]

/-- player/iivision.dbg, sym lines 800-831 -/
def symLines25 : List (List (List Nat × List Nat)) := [
  [([0x6469], [0x303038]), ([0x656d616e], [0x2231355f656761705f32365f6b6369745f706f22]), ([0x657a697372646461], [0x6574756c6f736261]), ([0x65706f6373], [0x31]), ([0x666564], [0x3236322b3436362b303031]), ([0x6c6176], [0x343434387830]), ([0x676573], [0x30]), ([0x65707974], [0x62616c])],
  [([0x6469], [0x313038]), ([0x656d616e], [0x22444022]), ([0x657a697372646461], [0x6574756c6f736261]), ([0x746e65726170], [0x323038]), ([0x666564], [0x3332382b3937372b303031]), ([0x666572], [0x3030312b303031]), ([0x6c6176], [0x313434387830]), ([0x676573], [0x30]), ([0x65707974], [0x62616c])],
  [([0x6469], [0x323038]), ([0x656d616e], [0x2231355f656761705f30365f6b6369745f706f22]), ([0x657a697372646461], [0x6574756c6f736261]), ([0x65706f6373], [0x31]), ([0x666564], [0x3532372b3937372b303031]), ([0x6c6176], [0x303134387830]), ([0x676573], [0x30]), ([0x65707974], [0x62616c])],
  [([0x6469], [0x333038]), ([0x656d616e], [0x22444022]), ([0x657a697372646461], [0x6574756c6f736261]), ([0x746e65726170], [0x343038]), ([0x666564], [0x383831312b3031352b303031]), ([0x666572], [0x3030312b303031]), ([0x6c6176], [0x443034387830]), ([0x676573], [0x30]), ([0x65707974], [0x62616c])],
  [([0x6469], [0x343038]), ([0x656d616e], [0x2231355f656761705f38355f6b6369745f706f22]), ([0x657a697372646461], [0x6574756c6f736261]), ([0x65706f6373], [0x31]), ([0x666564], [0x3638392b3031352b303031]), ([0x6c6176], [0x434433387830]), ([0x676573], [0x30]), ([0x65707974], [0x62616c])],
  [([0x6469], [0x353038]), ([0x656d616e], [0x22444022]), ([0x657a697372646461], [0x6574756c6f736261]), ([0x746e65726170], [0x363038]), ([0x666564], [0x3130382b3430372b303031]), ([0x666572], [0x3030312b303031]), ([0x6c6176], [0x394433387830]), ([0x676573], [0x30]), ([0x65707974], [0x62616c])],
  [([0x6469], [0x363038]), ([0x656d616e], [0x2231355f656761705f36355f6b6369745f706f22]), ([0x657a697372646461], [0x6574756c6f736261]), ([0x65706f6373], [0x31]), ([0x666564], [0x363832312b3430372b303031]), ([0x6c6176], [0x384133387830]), ([0x676573], [0x30]), ([0x65707974], [0x62616c])],
  [([0x6469], [0x373038]), ([0x656d616e], [0x22444022]), ([0x657a697372646461], [0x6574756c6f736261]), ([0x746e65726170], [0x383038]), ([0x666564], [0x323230312b3132362b303031]), ([0x666572], [0x3030312b303031]), ([0x6c6176], [0x354133387830]), ([0x676573], [0x30]), ([0x65707974], [0x62616c])],
  [([0x6469], [0x383038]), ([0x656d616e], [0x2231355f656761705f34355f6b6369745f706f22]), ([0x657a697372646461], [0x6574756c6f736261]), ([0x65706f6373], [0x31]), ([0x666564], [0x313032312b3132362b303031]), ([0x6c6176], [0x343733387830]), ([0x676573], [0x30]), ([0x65707974], [0x62616c])],
  [([0x6469], [0x393038]), ([0x656d616e], [0x2231355f656761705f32355f6b6369745f706f22]), ([0x657a697372646461], [0x6574756c6f736261]), ([0x65706f6373], [0x31]), ([0x666564], [0x3335312b3438382b303031]), ([0x6c6176], [0x393433387830]), ([0x676573], [0x30]), ([0x65707974], [0x62616c])],
  [([0x6469], [0x303138]), ([0x656d616e], [0x2231355f656761705f30355f6b6369745f706f22]), ([0x657a697372646461], [0x6574756c6f736261]), ([0x65706f6373], [0x31]), ([0x666564], [0x3236392b3431312b303031]), ([0x6c6176], [0x313233387830]), ([0x676573], [0x30]), ([0x65707974], [0x62616c])],
  [([0x6469], [0x313138]), ([0x656d616e], [0x2231355f656761705f38345f6b6369745f706f22]), ([0x657a697372646461], [0x6574756c6f736261]), ([0x65706f6373], [0x31]), ([0x666564], [0x3933342b363230312b303031]), ([0x6c6176], [0x384632387830]), ([0x676573], [0x30]), ([0x65707974], [0x62616c])],
  [([0x6469], [0x323138]), ([0x656d616e], [0x2231355f656761705f36345f6b6369745f706f22]), ([0x657a697372646461], [0x6574756c6f736261]), ([0x65706f6373], [0x31]), ([0x666564], [0x343430312b3734362b303031]), ([0x6c6176], [0x334432387830]), ([0x676573], [0x30]), ([0x65707974], [0x62616c])],
  [([0x6469], [0x333138]), ([0x656d616e], [0x2231355f656761705f34345f6b6369745f706f22]), ([0x657a697372646461], [0x6574756c6f736261]), ([0x65706f6373], [0x31]), ([0x666564], [0x3634352b3836322b303031]), ([0x6c6176], [0x444132387830]), ([0x676573], [0x30]), ([0x65707974], [0x62616c])],
  [([0x6469], [0x343138]), ([0x656d616e], [0x2231355f656761705f32345f6b6369745f706f22]), ([0x657a697372646461], [0x6574756c6f736261]), ([0x65706f6373], [0x31]), ([0x666564], [0x37362b32362b303031]), ([0x6c6176], [0x413832387830]), ([0x676573], [0x30]), ([0x65707974], [0x62616c])],
  [([0x6469], [0x353138]), ([0x656d616e], [0x2231355f656761705f30345f6b6369745f706f22]), ([0x657a697372646461], [0x6574756c6f736261]), ([0x65706f6373], [0x31]), ([0x666564], [0x323232312b343131312b303031]), ([0x6c6176], [0x373632387830]), ([0x676573], [0x30]), ([0x65707974], [0x62616c])],
  [([0x6469], [0x363138]), ([0x656d616e], [0x2231355f656761705f38335f6b6369745f706f22]), ([0x657a697372646461], [0x6574756c6f736261]), ([0x65706f6373], [0x31]), ([0x666564], [0x353633312b3930362b303031]), ([0x6c6176], [0x373432387830]), ([0x676573], [0x30]), ([0x65707974], [0x62616c])],
  [([0x6469], [0x373138]), ([0x656d616e], [0x22444022]), ([0x657a697372646461], [0x6574756c6f736261]), ([0x746e65726170], [0x383138]), ([0x666564], [0x333932312b363332312b303031]), ([0x666572], [0x3030312b303031]), ([0x6c6176], [0x343432387830]), ([0x676573], [0x30]), ([0x65707974], [0x62616c])],
  [([0x6469], [0x383138]), ([0x656d616e], [0x2231355f656761705f36335f6b6369745f706f22]), ([0x657a697372646461], [0x6574756c6f736261]), ([0x65706f6373], [0x31]), ([0x666564], [0x3036382b363332312b303031]), ([0x6c6176], [0x333132387830]), ([0x676573], [0x30]), ([0x65707974], [0x62616c])],
  [([0x6469], [0x393138]), ([0x656d616e], [0x2231355f656761705f34335f6b6369745f706f22]), ([0x657a697372646461], [0x6574756c6f736261]), ([0x65706f6373], [0x31]), ([0x666564], [0x343030312b363330312b303031]), ([0x6c6176], [0x444531387830]), ([0x676573], [0x30]), ([0x65707974], [0x62616c])],
  [([0x6469], [0x303238]), ([0x656d616e], [0x2231355f656761705f32335f6b6369745f706f22]), ([0x657a697372646461], [0x6574756c6f736261]), ([0x65706f6373], [0x31]), ([0x666564], [0x3234362b393230312b303031]), ([0x6c6176], [0x314431387830]), ([0x676573], [0x30]), ([0x65707974], [0x62616c])],
  [([0x6469], [0x313238]), ([0x656d616e], [0x2231355f656761705f30335f6b6369745f706f22]), ([0x657a697372646461], [0x6574756c6f736261]), ([0x65706f6373], [0x31]), ([0x666564], [0x373330312b373130312b303031]), ([0x6c6176], [0x344231387830]), ([0x676573], [0x30]), ([0x65707974], [0x62616c])],
  [([0x6469], [0x323238]), ([0x656d616e], [0x2231355f656761705f38325f6b6369745f706f22]), ([0x657a697372646461], [0x6574756c6f736261]), ([0x65706f6373], [0x31]), ([0x666564], [0x3231322b3637312b303031]), ([0x6c6176], [0x423931387830]), ([0x676573], [0x30]), ([0x65707974], [0x62616c])],
  [([0x6469], [0x333238]), ([0x656d616e], [0x2231355f656761705f36325f6b6369745f706f22]), ([0x657a697372646461], [0x6574756c6f736261]), ([0x65706f6373], [0x31]), ([0x666564], [0x3038352b3831322b303031]), ([0x6c6176], [0x313831387830]), ([0x676573], [0x30]), ([0x65707974], [0x62616c])],
  [([0x6469], [0x343238]), ([0x656d616e], [0x2231355f656761705f34325f6b6369745f706f22]), ([0x657a697372646461], [0x6574756c6f736261]), ([0x65706f6373], [0x31]), ([0x666564], [0x3837362b333232312b303031]), ([0x6c6176], [0x413631387830]), ([0x676573], [0x30]), ([0x65707974], [0x62616c])],
  [([0x6469], [0x353238]), ([0x656d616e], [0x2231355f656761705f32325f6b6369745f706f22]), ([0x657a697372646461], [0x6574756c6f736261]), ([0x65706f6373], [0x31]), ([0x666564], [0x323931312b373033312b303031]), ([0x6c6176], [0x333531387830]), ([0x676573], [0x30]), ([0x65707974], [0x62616c])],
  [([0x6469], [0x363238]), ([0x656d616e], [0x2231355f656761705f30325f6b6369745f706f22]), ([0x657a697372646461], [0x6574756c6f736261]), ([0x65706f6373], [0x31]), ([0x666564], [0x32332b373732312b303031]), ([0x6c6176], [0x463331387830]), ([0x676573], [0x30]), ([0x65707974], [0x62616c])],
  [([0x6469], [0x373238]), ([0x656d616e], [0x22444022]), ([0x657a697372646461], [0x6574756c6f736261]), ([0x746e65726170], [0x383238]), ([0x666564], [0x3430352b38392b303031]), ([0x666572], [0x3030312b303031]), ([0x6c6176], [0x433331387830]), ([0x676573], [0x30]), ([0x65707974], [0x62616c])],
  [([0x6469], [0x383238]), ([0x656d616e], [0x2231355f656761705f38315f6b6369745f706f22]), ([0x657a697372646461], [0x6574756c6f736261]), ([0x65706f6373], [0x31]), ([0x666564], [0x323032312b38392b303031]), ([0x6c6176], [0x423031387830]), ([0x676573], [0x30]), ([0x65707974], [0x62616c])],
  [([0x6469], [0x393238]), ([0x656d616e], [0x2231355f656761705f36315f6b6369745f706f22]), ([0x657a697372646461], [0x6574756c6f736261]), ([0x65706f6373], [0x31]), ([0x666564], [0x3032382b3332392b303031]), ([0x6c6176], [0x344630387830]), ([0x676573], [0x30]), ([0x65707974], [0x62616c])],
  [([0x6469], [0x303338]), ([0x656d616e], [0x2231355f656761705f34315f6b6369745f706f22]), ([0x657a697372646461], [0x6574756c6f736261]), ([0x65706f6373], [0x31]), ([0x666564], [0x33312b3430332b303031]), ([0x6c6176], [0x344530387830]), ([0x676573], [0x30]), ([0x65707974], [0x62616c])],
  [([0x6469], [0x313338]), ([0x656d616e], [0x2231355f656761705f32315f6b6369745f706f22]), ([0x657a697372646461], [0x6574756c6f736261]), ([0x65706f6373], [0x31]), ([0x666564], [0x3736372b383431312b303031]), ([0x6c6176], [0x334430387830]), ([0x676573], [0x30]), ([0x65707974], [0x62616c])]]

/-- player/iivision.dbg, sym lines 832-863 -/
def symLines26 : List (List (List Nat × List Nat)) := [
  [([0x6469], [0x323338]), ([0x656d616e], [0x2231355f656761705f30315f6b6369745f706f22]), ([0x657a697372646461], [0x6574756c6f736261]), ([0x65706f6373], [0x31]), ([0x666564], [0x3334392b3334372b303031]), ([0x6c6176], [0x364330387830]), ([0x676573], [0x30]), ([0x65707974], [0x62616c])],
  [([0x6469], [0x333338]), ([0x656d616e], [0x2231355f656761705f385f6b6369745f706f22]), ([0x657a697372646461], [0x6574756c6f736261]), ([0x65706f6373], [0x31]), ([0x666564], [0x3132382b3037332b303031]), ([0x6c6176], [0x384230387830]), ([0x676573], [0x30]), ([0x65707974], [0x62616c])],
  [([0x6469], [0x343338]), ([0x656d616e], [0x22385f6c6961745f31355f656761705f6b6369745f706f5f22]), ([0x657a697372646461], [0x6574756c6f736261]), ([0x65706f6373], [0x31]), ([0x666564], [0x3432312b3033362b3737352b303031]), ([0x6c6176], [0x324230387830]), ([0x676573], [0x30]), ([0x65707974], [0x62616c])],
  [([0x6469], [0x353338]), ([0x656d616e], [0x2232315f6c6961745f31355f656761705f6b6369745f706f5f22]), ([0x657a697372646461], [0x6574756c6f736261]), ([0x65706f6373], [0x31]), ([0x666564], [0x3432312b383430312b3737352b303031]), ([0x666572], [0x303031]), ([0x6c6176], [0x464130387830]), ([0x676573], [0x30]), ([0x65707974], [0x62616c])],
  [([0x6469], [0x363338]), ([0x656d616e], [0x22706d6a5f31355f656761705f365f6b6369745f706f5f22]), ([0x657a697372646461], [0x6574756c6f736261]), ([0x65706f6373], [0x31]), ([0x666564], [0x3735372b3737352b303031]), ([0x666572], [0x3030312b3030312b303031]), ([0x6c6176], [0x354230387830]), ([0x676573], [0x30]), ([0x65707974], [0x62616c])],
  [([0x6469], [0x373338]), ([0x656d616e], [0x2236315f6c6961745f31355f656761705f6b6369745f706f5f22]), ([0x657a697372646461], [0x6574756c6f736261]), ([0x65706f6373], [0x31]), ([0x666564], [0x3432312b3837312b3737352b303031]), ([0x666572], [0x303031]), ([0x6c6176], [0x434130387830]), ([0x676573], [0x30]), ([0x65707974], [0x62616c])],
  [([0x6469], [0x383338]), ([0x656d616e], [0x2230325f6c6961745f31355f656761705f6b6369745f706f5f22]), ([0x657a697372646461], [0x6574756c6f736261]), ([0x65706f6373], [0x31]), ([0x666564], [0x3432312b3238362b3737352b303031]), ([0x666572], [0x3030312b303031]), ([0x6c6176], [0x394130387830]), ([0x676573], [0x30]), ([0x65707974], [0x62616c])],
  [([0x6469], [0x393338]), ([0x656d616e], [0x2235325f6c6961745f31355f656761705f6b6369745f706f5f22]), ([0x657a697372646461], [0x6574756c6f736261]), ([0x65706f6373], [0x31]), ([0x666564], [0x3432312b353431312b3737352b303031]), ([0x6c6176], [0x364130387830]), ([0x676573], [0x30]), ([0x65707974], [0x62616c])],
  [([0x6469], [0x303438]), ([0x656d616e], [0x2239325f6c6961745f31355f656761705f6b6369745f706f5f22]), ([0x657a697372646461], [0x6574756c6f736261]), ([0x65706f6373], [0x31]), ([0x666564], [0x3432312b343632312b3737352b303031]), ([0x6c6176], [0x334130387830]), ([0x676573], [0x30]), ([0x65707974], [0x62616c])],
  [([0x6469], [0x313438]), ([0x656d616e], [0x2234335f6c6961745f31355f656761705f6b6369745f706f5f22]), ([0x657a697372646461], [0x6574756c6f736261]), ([0x65706f6373], [0x31]), ([0x666564], [0x3432312b3538342b3737352b303031]), ([0x666572], [0x303031]), ([0x6c6176], [0x304130387830]), ([0x676573], [0x30]), ([0x65707974], [0x62616c])],
  [([0x6469], [0x323438]), ([0x656d616e], [0x2238335f6c6961745f31355f656761705f6b6369745f706f5f22]), ([0x657a697372646461], [0x6574756c6f736261]), ([0x65706f6373], [0x31]), ([0x666564], [0x3432312b3435352b3737352b303031]), ([0x666572], [0x303031]), ([0x6c6176], [0x443930387830]), ([0x676573], [0x30]), ([0x65707974], [0x62616c])],
  [([0x6469], [0x333438]), ([0x656d616e], [0x2233345f6c6961745f31355f656761705f6b6369745f706f5f22]), ([0x657a697372646461], [0x6574756c6f736261]), ([0x65706f6373], [0x31]), ([0x666564], [0x3432312b383433312b3737352b303031]), ([0x666572], [0x303031]), ([0x6c6176], [0x413930387830]), ([0x676573], [0x30]), ([0x65707974], [0x62616c])],
  [([0x6469], [0x343438]), ([0x656d616e], [0x2237345f6c6961745f31355f656761705f6b6369745f706f5f22]), ([0x657a697372646461], [0x6574756c6f736261]), ([0x65706f6373], [0x31]), ([0x666564], [0x3432312b3637372b3737352b303031]), ([0x6c6176], [0x373930387830]), ([0x676573], [0x30]), ([0x65707974], [0x62616c])],
  [([0x6469], [0x353438]), ([0x656d616e], [0x2232355f6c6961745f31355f656761705f6b6369745f706f5f22]), ([0x657a697372646461], [0x6574756c6f736261]), ([0x65706f6373], [0x31]), ([0x666564], [0x3432312b3137362b3737352b303031]), ([0x666572], [0x303031]), ([0x6c6176], [0x343930387830]), ([0x676573], [0x30]), ([0x65707974], [0x62616c])],
  [([0x6469], [0x363438]), ([0x656d616e], [0x2236355f6c6961745f31355f656761705f6b6369745f706f5f22]), ([0x657a697372646461], [0x6574756c6f736261]), ([0x65706f6373], [0x31]), ([0x666564], [0x3432312b3839342b3737352b303031]), ([0x666572], [0x303031]), ([0x6c6176], [0x313930387830]), ([0x676573], [0x30]), ([0x65707974], [0x62616c])],
  [([0x6469], [0x373438]), ([0x656d616e], [0x2230365f6c6961745f31355f656761705f6b6369745f706f5f22]), ([0x657a697372646461], [0x6574756c6f736261]), ([0x65706f6373], [0x31]), ([0x666564], [0x3432312b353632312b3737352b303031]), ([0x6c6176], [0x453830387830]), ([0x676573], [0x30]), ([0x65707974], [0x62616c])],
  [([0x6469], [0x383438]), ([0x656d616e], [0x2231355f656761705f365f6b6369745f706f22]), ([0x657a697372646461], [0x6574756c6f736261]), ([0x65706f6373], [0x31]), ([0x666564], [0x3432382b3737352b303031]), ([0x6c6176], [0x353830387830]), ([0x676573], [0x30]), ([0x65707974], [0x62616c])],
  [([0x6469], [0x393438]), ([0x656d616e], [0x22375f6c6961745f31355f656761705f6b6369745f706f5f22]), ([0x657a697372646461], [0x6574756c6f736261]), ([0x65706f6373], [0x31]), ([0x666564], [0x3432312b3330392b3337332b303031]), ([0x6c6176], [0x463730387830]), ([0x676573], [0x30]), ([0x65707974], [0x62616c])],
  [([0x6469], [0x303538]), ([0x656d616e], [0x2231315f6c6961745f31355f656761705f6b6369745f706f5f22]), ([0x657a697372646461], [0x6574756c6f736261]), ([0x65706f6373], [0x31]), ([0x666564], [0x3432312b333732312b3337332b303031]), ([0x6c6176], [0x433730387830]), ([0x676573], [0x30]), ([0x65707974], [0x62616c])],
  [([0x6469], [0x313538]), ([0x656d616e], [0x22706d6a5f31355f656761705f345f6b6369745f706f5f22]), ([0x657a697372646461], [0x6574756c6f736261]), ([0x65706f6373], [0x31]), ([0x666564], [0x3134322b3337332b303031]), ([0x666572], [0x3030312b303031]), ([0x6c6176], [0x323830387830]), ([0x676573], [0x30]), ([0x65707974], [0x62616c])],
  [([0x6469], [0x323538]), ([0x656d616e], [0x2235315f6c6961745f31355f656761705f6b6369745f706f5f22]), ([0x657a697372646461], [0x6574756c6f736261]), ([0x65706f6373], [0x31]), ([0x666564], [0x3432312b3538352b3337332b303031]), ([0x666572], [0x303031]), ([0x6c6176], [0x393730387830]), ([0x676573], [0x30]), ([0x65707974], [0x62616c])],
  [([0x6469], [0x333538]), ([0x656d616e], [0x2239315f6c6961745f31355f656761705f6b6369745f706f5f22]), ([0x657a697372646461], [0x6574756c6f736261]), ([0x65706f6373], [0x31]), ([0x666564], [0x3432312b3737322b3337332b303031]), ([0x666572], [0x303031]), ([0x6c6176], [0x363730387830]), ([0x676573], [0x30]), ([0x65707974], [0x62616c])],
  [([0x6469], [0x343538]), ([0x656d616e], [0x2234325f6c6961745f31355f656761705f6b6369745f706f5f22]), ([0x657a697372646461], [0x6574756c6f736261]), ([0x65706f6373], [0x31]), ([0x666564], [0x3432312b3831352b3337332b303031]), ([0x666572], [0x3030312b303031]), ([0x6c6176], [0x333730387830]), ([0x676573], [0x30]), ([0x65707974], [0x62616c])],
  [([0x6469], [0x353538]), ([0x656d616e], [0x2238325f6c6961745f31355f656761705f6b6369745f706f5f22]), ([0x657a697372646461], [0x6574756c6f736261]), ([0x65706f6373], [0x31]), ([0x666564], [0x3432312b3436312b3337332b303031]), ([0x666572], [0x303031]), ([0x6c6176], [0x303730387830]), ([0x676573], [0x30]), ([0x65707974], [0x62616c])],
  [([0x6469], [0x363538]), ([0x656d616e], [0x2233335f6c6961745f31355f656761705f6b6369745f706f5f22]), ([0x657a697372646461], [0x6574756c6f736261]), ([0x65706f6373], [0x31]), ([0x666564], [0x3432312b3435312b3337332b303031]), ([0x666572], [0x303031]), ([0x6c6176], [0x443630387830]), ([0x676573], [0x30]), ([0x65707974], [0x62616c])],
  [([0x6469], [0x373538]), ([0x656d616e], [0x2237335f6c6961745f31355f656761705f6b6369745f706f5f22]), ([0x657a697372646461], [0x6574756c6f736261]), ([0x65706f6373], [0x31]), ([0x666564], [0x3432312b373532312b3337332b303031]), ([0x666572], [0x303031]), ([0x6c6176], [0x413630387830]), ([0x676573], [0x30]), ([0x65707974], [0x62616c])],
  [([0x6469], [0x383538]), ([0x656d616e], [0x2232345f6c6961745f31355f656761705f6b6369745f706f5f22]), ([0x657a697372646461], [0x6574756c6f736261]), ([0x65706f6373], [0x31]), ([0x666564], [0x3432312b323033312b3337332b303031]), ([0x666572], [0x3030312b303031]), ([0x6c6176], [0x373630387830]), ([0x676573], [0x30]), ([0x65707974], [0x62616c])],
  [([0x6469], [0x393538]), ([0x656d616e], [0x2236345f6c6961745f31355f656761705f6b6369745f706f5f22]), ([0x657a697372646461], [0x6574756c6f736261]), ([0x65706f6373], [0x31]), ([0x666564], [0x3432312b3530382b3337332b303031]), ([0x666572], [0x303031]), ([0x6c6176], [0x343630387830]), ([0x676573], [0x30]), ([0x65707974], [0x62616c])],
  [([0x6469], [0x303638]), ([0x656d616e], [0x2231355f6c6961745f31355f656761705f6b6369745f706f5f22]), ([0x657a697372646461], [0x6574756c6f736261]), ([0x65706f6373], [0x31]), ([0x666564], [0x3432312b343231312b3337332b303031]), ([0x666572], [0x303031]), ([0x6c6176], [0x313630387830]), ([0x676573], [0x30]), ([0x65707974], [0x62616c])],
  [([0x6469], [0x313638]), ([0x656d616e], [0x2235355f6c6961745f31355f656761705f6b6369745f706f5f22]), ([0x657a697372646461], [0x6574756c6f736261]), ([0x65706f6373], [0x31]), ([0x666564], [0x3432312b3332332b3337332b303031]), ([0x666572], [0x303031]), ([0x6c6176], [0x453530387830]), ([0x676573], [0x30]), ([0x65707974], [0x62616c])],
  [([0x6469], [0x323638]), ([0x656d616e], [0x2239355f6c6961745f31355f656761705f6b6369745f706f5f22]), ([0x657a697372646461], [0x6574756c6f736261]), ([0x65706f6373], [0x31]), ([0x666564], [0x3432312b323431312b3337332b303031]), ([0x6c6176], [0x423530387830]), ([0x676573], [0x30]), ([0x65707974], [0x62616c])],
  [([0x6469], [0x333638]), ([0x656d616e], [0x2231355f656761705f345f6b6369745f706f22]), ([0x657a697372646461], [0x6574756c6f736261]), ([0x65706f6373], [0x31]), ([0x666564], [0x323630312b3337332b303031]), ([0x6c6176], [0x313530387830]), ([0x676573], [0x30]), ([0x65707974], [0x62616c])]]

/-- player/iivision.dbg, sym lines 864-895 -/
def symLines27 : List (List (List Nat × List Nat)) := [
  [([0x6469], [0x343638]), ([0x656d616e], [0x22444022]), ([0x657a697372646461], [0x6574756c6f736261]), ([0x746e65726170], [0x353638]), ([0x666564], [0x3435322b3833312b38373331]), ([0x666572], [0x383733312b38373331]), ([0x6c6176], [0x453430387830]), ([0x676573], [0x30]), ([0x65707974], [0x62616c])],
  [([0x6469], [0x353638]), ([0x656d616e], [0x2230355f656761705f36365f6b6369745f706f22]), ([0x657a697372646461], [0x6574756c6f736261]), ([0x65706f6373], [0x31]), ([0x666564], [0x3739362b3833312b38373331]), ([0x6c6176], [0x443130387830]), ([0x676573], [0x30]), ([0x65707974], [0x62616c])],
  [([0x6469], [0x363638]), ([0x656d616e], [0x22444022]), ([0x657a697372646461], [0x6574756c6f736261]), ([0x746e65726170], [0x373638]), ([0x666564], [0x3030372b313030312b38373331]), ([0x666572], [0x383733312b38373331]), ([0x6c6176], [0x413130387830]), ([0x676573], [0x30]), ([0x65707974], [0x62616c])],
  [([0x6469], [0x373638]), ([0x656d616e], [0x2230355f656761705f34365f6b6369745f706f22]), ([0x657a697372646461], [0x6574756c6f736261]), ([0x65706f6373], [0x31]), ([0x666564], [0x3937392b313030312b38373331]), ([0x6c6176], [0x394546377830]), ([0x676573], [0x30]), ([0x65707974], [0x62616c])],
  [([0x6469], [0x383638]), ([0x656d616e], [0x22444022]), ([0x657a697372646461], [0x6574756c6f736261]), ([0x746e65726170], [0x393638]), ([0x666564], [0x3033382b3436362b38373331]), ([0x666572], [0x383733312b38373331]), ([0x6c6176], [0x364546377830]), ([0x676573], [0x30]), ([0x65707974], [0x62616c])],
  [([0x6469], [0x393638]), ([0x656d616e], [0x2230355f656761705f32365f6b6369745f706f22]), ([0x657a697372646461], [0x6574756c6f736261]), ([0x65706f6373], [0x31]), ([0x666564], [0x3236322b3436362b38373331]), ([0x6c6176], [0x354246377830]), ([0x676573], [0x30]), ([0x65707974], [0x62616c])],
  [([0x6469], [0x303738]), ([0x656d616e], [0x22444022]), ([0x657a697372646461], [0x6574756c6f736261]), ([0x746e65726170], [0x313738]), ([0x666564], [0x3332382b3937372b38373331]), ([0x666572], [0x383733312b38373331]), ([0x6c6176], [0x324246377830]), ([0x676573], [0x30]), ([0x65707974], [0x62616c])],
  [([0x6469], [0x313738]), ([0x656d616e], [0x2230355f656761705f30365f6b6369745f706f22]), ([0x657a697372646461], [0x6574756c6f736261]), ([0x65706f6373], [0x31]), ([0x666564], [0x3532372b3937372b38373331]), ([0x6c6176], [0x313846377830]), ([0x676573], [0x30]), ([0x65707974], [0x62616c])],
  [([0x6469], [0x323738]), ([0x656d616e], [0x22444022]), ([0x657a697372646461], [0x6574756c6f736261]), ([0x746e65726170], [0x333738]), ([0x666564], [0x383831312b3031352b38373331]), ([0x666572], [0x383733312b38373331]), ([0x6c6176], [0x453746377830]), ([0x676573], [0x30]), ([0x65707974], [0x62616c])],
  [([0x6469], [0x333738]), ([0x656d616e], [0x2230355f656761705f38355f6b6369745f706f22]), ([0x657a697372646461], [0x6574756c6f736261]), ([0x65706f6373], [0x31]), ([0x666564], [0x3638392b3031352b38373331]), ([0x6c6176], [0x443446377830]), ([0x676573], [0x30]), ([0x65707974], [0x62616c])],
  [([0x6469], [0x343738]), ([0x656d616e], [0x22444022]), ([0x657a697372646461], [0x6574756c6f736261]), ([0x746e65726170], [0x353738]), ([0x666564], [0x3130382b3430372b38373331]), ([0x666572], [0x383733312b38373331]), ([0x6c6176], [0x413446377830]), ([0x676573], [0x30]), ([0x65707974], [0x62616c])],
  [([0x6469], [0x353738]), ([0x656d616e], [0x2230355f656761705f36355f6b6369745f706f22]), ([0x657a697372646461], [0x6574756c6f736261]), ([0x65706f6373], [0x31]), ([0x666564], [0x363832312b3430372b38373331]), ([0x6c6176], [0x393146377830]), ([0x676573], [0x30]), ([0x65707974], [0x62616c])],
  [([0x6469], [0x363738]), ([0x656d616e], [0x22444022]), ([0x657a697372646461], [0x6574756c6f736261]), ([0x746e65726170], [0x373738]), ([0x666564], [0x323230312b3132362b38373331]), ([0x666572], [0x383733312b38373331]), ([0x6c6176], [0x363146377830]), ([0x676573], [0x30]), ([0x65707974], [0x62616c])],
  [([0x6469], [0x373738]), ([0x656d616e], [0x2230355f656761705f34355f6b6369745f706f22]), ([0x657a697372646461], [0x6574756c6f736261]), ([0x65706f6373], [0x31]), ([0x666564], [0x313032312b3132362b38373331]), ([0x6c6176], [0x354545377830]), ([0x676573], [0x30]), ([0x65707974], [0x62616c])],
  [([0x6469], [0x383738]), ([0x656d616e], [0x2230355f656761705f32355f6b6369745f706f22]), ([0x657a697372646461], [0x6574756c6f736261]), ([0x65706f6373], [0x31]), ([0x666564], [0x3335312b3438382b38373331]), ([0x6c6176], [0x414245377830]), ([0x676573], [0x30]), ([0x65707974], [0x62616c])],
  [([0x6469], [0x393738]), ([0x656d616e], [0x2230355f656761705f30355f6b6369745f706f22]), ([0x657a697372646461], [0x6574756c6f736261]), ([0x65706f6373], [0x31]), ([0x666564], [0x3236392b3431312b38373331]), ([0x6c6176], [0x323945377830]), ([0x676573], [0x30]), ([0x65707974], [0x62616c])],
  [([0x6469], [0x303838]), ([0x656d616e], [0x2230355f656761705f38345f6b6369745f706f22]), ([0x657a697372646461], [0x6574756c6f736261]), ([0x65706f6373], [0x31]), ([0x666564], [0x3933342b363230312b38373331]), ([0x6c6176], [0x393645377830]), ([0x676573], [0x30]), ([0x65707974], [0x62616c])],
  [([0x6469], [0x313838]), ([0x656d616e], [0x2230355f656761705f36345f6b6369745f706f22]), ([0x657a697372646461], [0x6574756c6f736261]), ([0x65706f6373], [0x31]), ([0x666564], [0x343430312b3734362b38373331]), ([0x6c6176], [0x343445377830]), ([0x676573], [0x30]), ([0x65707974], [0x62616c])],
  [([0x6469], [0x323838]), ([0x656d616e], [0x2230355f656761705f34345f6b6369745f706f22]), ([0x657a697372646461], [0x6574756c6f736261]), ([0x65706f6373], [0x31]), ([0x666564], [0x3634352b3836322b38373331]), ([0x6c6176], [0x453145377830]), ([0x676573], [0x30]), ([0x65707974], [0x62616c])],
  [([0x6469], [0x333838]), ([0x656d616e], [0x2230355f656761705f32345f6b6369745f706f22]), ([0x657a697372646461], [0x6574756c6f736261]), ([0x65706f6373], [0x31]), ([0x666564], [0x37362b32362b38373331]), ([0x6c6176], [0x424644377830]), ([0x676573], [0x30]), ([0x65707974], [0x62616c])],
  [([0x6469], [0x343838]), ([0x656d616e], [0x2230355f656761705f30345f6b6369745f706f22]), ([0x657a697372646461], [0x6574756c6f736261]), ([0x65706f6373], [0x31]), ([0x666564], [0x323232312b343131312b38373331]), ([0x6c6176], [0x384444377830]), ([0x676573], [0x30]), ([0x65707974], [0x62616c])],
  [([0x6469], [0x353838]), ([0x656d616e], [0x2230355f656761705f38335f6b6369745f706f22]), ([0x657a697372646461], [0x6574756c6f736261]), ([0x65706f6373], [0x31]), ([0x666564], [0x353633312b3930362b38373331]), ([0x6c6176], [0x384244377830]), ([0x676573], [0x30]), ([0x65707974], [0x62616c])],
  [([0x6469], [0x363838]), ([0x656d616e], [0x22444022]), ([0x657a697372646461], [0x6574756c6f736261]), ([0x746e65726170], [0x373838]), ([0x666564], [0x333932312b363332312b38373331]), ([0x666572], [0x383733312b38373331]), ([0x6c6176], [0x354244377830]), ([0x676573], [0x30]), ([0x65707974], [0x62616c])],
  [([0x6469], [0x373838]), ([0x656d616e], [0x2230355f656761705f36335f6b6369745f706f22]), ([0x657a697372646461], [0x6574756c6f736261]), ([0x65706f6373], [0x31]), ([0x666564], [0x3036382b363332312b38373331]), ([0x6c6176], [0x343844377830]), ([0x676573], [0x30]), ([0x65707974], [0x62616c])],
  [([0x6469], [0x383838]), ([0x656d616e], [0x2230355f656761705f34335f6b6369745f706f22]), ([0x657a697372646461], [0x6574756c6f736261]), ([0x65706f6373], [0x31]), ([0x666564], [0x343030312b363330312b38373331]), ([0x6c6176], [0x453544377830]), ([0x676573], [0x30]), ([0x65707974], [0x62616c])],
  [([0x6469], [0x393838]), ([0x656d616e], [0x2230355f656761705f32335f6b6369745f706f22]), ([0x657a697372646461], [0x6574756c6f736261]), ([0x65706f6373], [0x31]), ([0x666564], [0x3234362b393230312b38373331]), ([0x6c6176], [0x323444377830]), ([0x676573], [0x30]), ([0x65707974], [0x62616c])],
  [([0x6469], [0x303938]), ([0x656d616e], [0x2230355f656761705f30335f6b6369745f706f22]), ([0x657a697372646461], [0x6574756c6f736261]), ([0x65706f6373], [0x31]), ([0x666564], [0x373330312b373130312b38373331]), ([0x6c6176], [0x353244377830]), ([0x676573], [0x30]), ([0x65707974], [0x62616c])],
  [([0x6469], [0x313938]), ([0x656d616e], [0x2230355f656761705f38325f6b6369745f706f22]), ([0x657a697372646461], [0x6574756c6f736261]), ([0x65706f6373], [0x31]), ([0x666564], [0x3231322b3637312b38373331]), ([0x6c6176], [0x433044377830]), ([0x676573], [0x30]), ([0x65707974], [0x62616c])],
  [([0x6469], [0x323938]), ([0x656d616e], [0x2230355f656761705f36325f6b6369745f706f22]), ([0x657a697372646461], [0x6574756c6f736261]), ([0x65706f6373], [0x31]), ([0x666564], [0x3038352b3831322b38373331]), ([0x6c6176], [0x324643377830]), ([0x676573], [0x30]), ([0x65707974], [0x62616c])],
  [([0x6469], [0x333938]), ([0x656d616e], [0x2230355f656761705f34325f6b6369745f706f22]), ([0x657a697372646461], [0x6574756c6f736261]), ([0x65706f6373], [0x31]), ([0x666564], [0x3837362b333232312b38373331]), ([0x6c6176], [0x424443377830]), ([0x676573], [0x30]), ([0x65707974], [0x62616c])],
  [([0x6469], [0x343938]), ([0x656d616e], [0x2230355f656761705f32325f6b6369745f706f22]), ([0x657a697372646461], [0x6574756c6f736261]), ([0x65706f6373], [0x31]), ([0x666564], [0x323931312b373033312b38373331]), ([0x6c6176], [0x344343377830]), ([0x676573], [0x30]), ([0x65707974], [0x62616c])],
  [([0x6469], [0x353938]), ([0x656d616e], [0x2230355f656761705f30325f6b6369745f706f22]), ([0x657a697372646461], [0x6574756c6f736261]), ([0x65706f6373], [0x31]), ([0x666564], [0x32332b373732312b38373331]), ([0x6c6176], [0x304243377830]), ([0x676573], [0x30]), ([0x65707974], [0x62616c])]]

/-- player/iivision.dbg, sym lines 896-927 -/
def symLines28 : List (List (List Nat × List Nat)) := [
  [([0x6469], [0x363938]), ([0x656d616e], [0x22444022]), ([0x657a697372646461], [0x6574756c6f736261]), ([0x746e65726170], [0x373938]), ([0x666564], [0x3430352b38392b38373331]), ([0x666572], [0x383733312b38373331]), ([0x6c6176], [0x444143377830]), ([0x676573], [0x30]), ([0x65707974], [0x62616c])],
  [([0x6469], [0x373938]), ([0x656d616e], [0x2230355f656761705f38315f6b6369745f706f22]), ([0x657a697372646461], [0x6574756c6f736261]), ([0x65706f6373], [0x31]), ([0x666564], [0x323032312b38392b38373331]), ([0x6c6176], [0x433743377830]), ([0x676573], [0x30]), ([0x65707974], [0x62616c])],
  [([0x6469], [0x383938]), ([0x656d616e], [0x2230355f656761705f36315f6b6369745f706f22]), ([0x657a697372646461], [0x6574756c6f736261]), ([0x65706f6373], [0x31]), ([0x666564], [0x3032382b3332392b38373331]), ([0x6c6176], [0x353643377830]), ([0x676573], [0x30]), ([0x65707974], [0x62616c])],
  [([0x6469], [0x393938]), ([0x656d616e], [0x2230355f656761705f34315f6b6369745f706f22]), ([0x657a697372646461], [0x6574756c6f736261]), ([0x65706f6373], [0x31]), ([0x666564], [0x33312b3430332b38373331]), ([0x6c6176], [0x353543377830]), ([0x676573], [0x30]), ([0x65707974], [0x62616c])],
  [([0x6469], [0x303039]), ([0x656d616e], [0x2230355f656761705f32315f6b6369745f706f22]), ([0x657a697372646461], [0x6574756c6f736261]), ([0x65706f6373], [0x31]), ([0x666564], [0x3736372b383431312b38373331]), ([0x6c6176], [0x343443377830]), ([0x676573], [0x30]), ([0x65707974], [0x62616c])],
  [([0x6469], [0x313039]), ([0x656d616e], [0x2230355f656761705f30315f6b6369745f706f22]), ([0x657a697372646461], [0x6574756c6f736261]), ([0x65706f6373], [0x31]), ([0x666564], [0x3334392b3334372b38373331]), ([0x6c6176], [0x373343377830]), ([0x676573], [0x30]), ([0x65707974], [0x62616c])],
  [([0x6469], [0x323039]), ([0x656d616e], [0x2230355f656761705f385f6b6369745f706f22]), ([0x657a697372646461], [0x6574756c6f736261]), ([0x65706f6373], [0x31]), ([0x666564], [0x3132382b3037332b38373331]), ([0x6c6176], [0x393243377830]), ([0x676573], [0x30]), ([0x65707974], [0x62616c])],
  [([0x6469], [0x333039]), ([0x656d616e], [0x22385f6c6961745f30355f656761705f6b6369745f706f5f22]), ([0x657a697372646461], [0x6574756c6f736261]), ([0x65706f6373], [0x31]), ([0x666564], [0x3432312b3033362b3737352b38373331]), ([0x6c6176], [0x333243377830]), ([0x676573], [0x30]), ([0x65707974], [0x62616c])],
  [([0x6469], [0x343039]), ([0x656d616e], [0x2232315f6c6961745f30355f656761705f6b6369745f706f5f22]), ([0x657a697372646461], [0x6574756c6f736261]), ([0x65706f6373], [0x31]), ([0x666564], [0x3432312b383430312b3737352b38373331]), ([0x666572], [0x38373331]), ([0x6c6176], [0x303243377830]), ([0x676573], [0x30]), ([0x65707974], [0x62616c])],
  [([0x6469], [0x353039]), ([0x656d616e], [0x22706d6a5f30355f656761705f365f6b6369745f706f5f22]), ([0x657a697372646461], [0x6574756c6f736261]), ([0x65706f6373], [0x31]), ([0x666564], [0x3735372b3737352b38373331]), ([0x666572], [0x383733312b383733312b38373331]), ([0x6c6176], [0x363243377830]), ([0x676573], [0x30]), ([0x65707974], [0x62616c])],
  [([0x6469], [0x363039]), ([0x656d616e], [0x2236315f6c6961745f30355f656761705f6b6369745f706f5f22]), ([0x657a697372646461], [0x6574756c6f736261]), ([0x65706f6373], [0x31]), ([0x666564], [0x3432312b3837312b3737352b38373331]), ([0x666572], [0x38373331]), ([0x6c6176], [0x443143377830]), ([0x676573], [0x30]), ([0x65707974], [0x62616c])],
  [([0x6469], [0x373039]), ([0x656d616e], [0x2230325f6c6961745f30355f656761705f6b6369745f706f5f22]), ([0x657a697372646461], [0x6574756c6f736261]), ([0x65706f6373], [0x31]), ([0x666564], [0x3432312b3238362b3737352b38373331]), ([0x666572], [0x383733312b38373331]), ([0x6c6176], [0x413143377830]), ([0x676573], [0x30]), ([0x65707974], [0x62616c])],
  [([0x6469], [0x383039]), ([0x656d616e], [0x2235325f6c6961745f30355f656761705f6b6369745f706f5f22]), ([0x657a697372646461], [0x6574756c6f736261]), ([0x65706f6373], [0x31]), ([0x666564], [0x3432312b353431312b3737352b38373331]), ([0x6c6176], [0x373143377830]), ([0x676573], [0x30]), ([0x65707974], [0x62616c])],
  [([0x6469], [0x393039]), ([0x656d616e], [0x2239325f6c6961745f30355f656761705f6b6369745f706f5f22]), ([0x657a697372646461], [0x6574756c6f736261]), ([0x65706f6373], [0x31]), ([0x666564], [0x3432312b343632312b3737352b38373331]), ([0x6c6176], [0x343143377830]), ([0x676573], [0x30]), ([0x65707974], [0x62616c])],
  [([0x6469], [0x303139]), ([0x656d616e], [0x2234335f6c6961745f30355f656761705f6b6369745f706f5f22]), ([0x657a697372646461], [0x6574756c6f736261]), ([0x65706f6373], [0x31]), ([0x666564], [0x3432312b3538342b3737352b38373331]), ([0x666572], [0x38373331]), ([0x6c6176], [0x313143377830]), ([0x676573], [0x30]), ([0x65707974], [0x62616c])],
  [([0x6469], [0x313139]), ([0x656d616e], [0x2238335f6c6961745f30355f656761705f6b6369745f706f5f22]), ([0x657a697372646461], [0x6574756c6f736261]), ([0x65706f6373], [0x31]), ([0x666564], [0x3432312b3435352b3737352b38373331]), ([0x666572], [0x38373331]), ([0x6c6176], [0x453043377830]), ([0x676573], [0x30]), ([0x65707974], [0x62616c])],
  [([0x6469], [0x323139]), ([0x656d616e], [0x2233345f6c6961745f30355f656761705f6b6369745f706f5f22]), ([0x657a697372646461], [0x6574756c6f736261]), ([0x65706f6373], [0x31]), ([0x666564], [0x3432312b383433312b3737352b38373331]), ([0x666572], [0x38373331]), ([0x6c6176], [0x423043377830]), ([0x676573], [0x30]), ([0x65707974], [0x62616c])],
  [([0x6469], [0x333139]), ([0x656d616e], [0x2237345f6c6961745f30355f656761705f6b6369745f706f5f22]), ([0x657a697372646461], [0x6574756c6f736261]), ([0x65706f6373], [0x31]), ([0x666564], [0x3432312b3637372b3737352b38373331]), ([0x6c6176], [0x383043377830]), ([0x676573], [0x30]), ([0x65707974], [0x62616c])],
  [([0x6469], [0x343139]), ([0x656d616e], [0x2232355f6c6961745f30355f656761705f6b6369745f706f5f22]), ([0x657a697372646461], [0x6574756c6f736261]), ([0x65706f6373], [0x31]), ([0x666564], [0x3432312b3137362b3737352b38373331]), ([0x666572], [0x38373331]), ([0x6c6176], [0x353043377830]), ([0x676573], [0x30]), ([0x65707974], [0x62616c])],
  [([0x6469], [0x353139]), ([0x656d616e], [0x2236355f6c6961745f30355f656761705f6b6369745f706f5f22]), ([0x657a697372646461], [0x6574756c6f736261]), ([0x65706f6373], [0x31]), ([0x666564], [0x3432312b3839342b3737352b38373331]), ([0x666572], [0x38373331]), ([0x6c6176], [0x323043377830]), ([0x676573], [0x30]), ([0x65707974], [0x62616c])],
  [([0x6469], [0x363139]), ([0x656d616e], [0x2230365f6c6961745f30355f656761705f6b6369745f706f5f22]), ([0x657a697372646461], [0x6574756c6f736261]), ([0x65706f6373], [0x31]), ([0x666564], [0x3432312b353632312b3737352b38373331]), ([0x6c6176], [0x464642377830]), ([0x676573], [0x30]), ([0x65707974], [0x62616c])],
  [([0x6469], [0x373139]), ([0x656d616e], [0x2230355f656761705f365f6b6369745f706f22]), ([0x657a697372646461], [0x6574756c6f736261]), ([0x65706f6373], [0x31]), ([0x666564], [0x3432382b3737352b38373331]), ([0x6c6176], [0x364642377830]), ([0x676573], [0x30]), ([0x65707974], [0x62616c])],
  [([0x6469], [0x383139]), ([0x656d616e], [0x22375f6c6961745f30355f656761705f6b6369745f706f5f22]), ([0x657a697372646461], [0x6574756c6f736261]), ([0x65706f6373], [0x31]), ([0x666564], [0x3432312b3330392b3337332b38373331]), ([0x6c6176], [0x304642377830]), ([0x676573], [0x30]), ([0x65707974], [0x62616c])],
  [([0x6469], [0x393139]), ([0x656d616e], [0x2231315f6c6961745f30355f656761705f6b6369745f706f5f22]), ([0x657a697372646461], [0x6574756c6f736261]), ([0x65706f6373], [0x31]), ([0x666564], [0x3432312b333732312b3337332b38373331]), ([0x6c6176], [0x444542377830]), ([0x676573], [0x30]), ([0x65707974], [0x62616c])],
  [([0x6469], [0x303239]), ([0x656d616e], [0x22706d6a5f30355f656761705f345f6b6369745f706f5f22]), ([0x657a697372646461], [0x6574756c6f736261]), ([0x65706f6373], [0x31]), ([0x666564], [0x3134322b3337332b38373331]), ([0x666572], [0x383733312b38373331]), ([0x6c6176], [0x334642377830]), ([0x676573], [0x30]), ([0x65707974], [0x62616c])],
  [([0x6469], [0x313239]), ([0x656d616e], [0x2235315f6c6961745f30355f656761705f6b6369745f706f5f22]), ([0x657a697372646461], [0x6574756c6f736261]), ([0x65706f6373], [0x31]), ([0x666564], [0x3432312b3538352b3337332b38373331]), ([0x666572], [0x38373331]), ([0x6c6176], [0x414542377830]), ([0x676573], [0x30]), ([0x65707974], [0x62616c])],
  [([0x6469], [0x323239]), ([0x656d616e], [0x2239315f6c6961745f30355f656761705f6b6369745f706f5f22]), ([0x657a697372646461], [0x6574756c6f736261]), ([0x65706f6373], [0x31]), ([0x666564], [0x3432312b3737322b3337332b38373331]), ([0x666572], [0x38373331]), ([0x6c6176], [0x374542377830]), ([0x676573], [0x30]), ([0x65707974], [0x62616c])],
  [([0x6469], [0x333239]), ([0x656d616e], [0x2234325f6c6961745f30355f656761705f6b6369745f706f5f22]), ([0x657a697372646461], [0x6574756c6f736261]), ([0x65706f6373], [0x31]), ([0x666564], [0x3432312b3831352b3337332b38373331]), ([0x666572], [0x383733312b38373331]), ([0x6c6176], [0x344542377830]), ([0x676573], [0x30]), ([0x65707974], [0x62616c])],
  [([0x6469], [0x343239]), ([0x656d616e], [0x2238325f6c6961745f30355f656761705f6b6369745f706f5f22]), ([0x657a697372646461], [0x6574756c6f736261]), ([0x65706f6373], [0x31]), ([0x666564], [0x3432312b3436312b3337332b38373331]), ([0x666572], [0x38373331]), ([0x6c6176], [0x314542377830]), ([0x676573], [0x30]), ([0x65707974], [0x62616c])],
  [([0x6469], [0x353239]), ([0x656d616e], [0x2233335f6c6961745f30355f656761705f6b6369745f706f5f22]), ([0x657a697372646461], [0x6574756c6f736261]), ([0x65706f6373], [0x31]), ([0x666564], [0x3432312b3435312b3337332b38373331]), ([0x666572], [0x38373331]), ([0x6c6176], [0x454442377830]), ([0x676573], [0x30]), ([0x65707974], [0x62616c])],
  [([0x6469], [0x363239]), ([0x656d616e], [0x2237335f6c6961745f30355f656761705f6b6369745f706f5f22]), ([0x657a697372646461], [0x6574756c6f736261]), ([0x65706f6373], [0x31]), ([0x666564], [0x3432312b373532312b3337332b38373331]), ([0x666572], [0x38373331]), ([0x6c6176], [0x424442377830]), ([0x676573], [0x30]), ([0x65707974], [0x62616c])],
  [([0x6469], [0x373239]), ([0x656d616e], [0x2232345f6c6961745f30355f656761705f6b6369745f706f5f22]), ([0x657a697372646461], [0x6574756c6f736261]), ([0x65706f6373], [0x31]), ([0x666564], [0x3432312b323033312b3337332b38373331]), ([0x666572], [0x383733312b38373331]), ([0x6c6176], [0x384442377830]), ([0x676573], [0x30]), ([0x65707974], [0x62616c])]]

/-- player/iivision.dbg, sym lines 928-959 -/
def symLines29 : List (List (List Nat × List Nat)) := [
  [([0x6469], [0x383239]), ([0x656d616e], [0x2236345f6c6961745f30355f656761705f6b6369745f706f5f22]), ([0x657a697372646461], [0x6574756c6f736261]), ([0x65706f6373], [0x31]), ([0x666564], [0x3432312b3530382b3337332b38373331]), ([0x666572], [0x38373331]), ([0x6c6176], [0x354442377830]), ([0x676573], [0x30]), ([0x65707974], [0x62616c])],
  [([0x6469], [0x393239]), ([0x656d616e], [0x2231355f6c6961745f30355f656761705f6b6369745f706f5f22]), ([0x657a697372646461], [0x6574756c6f736261]), ([0x65706f6373], [0x31]), ([0x666564], [0x3432312b343231312b3337332b38373331]), ([0x666572], [0x38373331]), ([0x6c6176], [0x324442377830]), ([0x676573], [0x30]), ([0x65707974], [0x62616c])],
  [([0x6469], [0x303339]), ([0x656d616e], [0x2235355f6c6961745f30355f656761705f6b6369745f706f5f22]), ([0x657a697372646461], [0x6574756c6f736261]), ([0x65706f6373], [0x31]), ([0x666564], [0x3432312b3332332b3337332b38373331]), ([0x666572], [0x38373331]), ([0x6c6176], [0x464342377830]), ([0x676573], [0x30]), ([0x65707974], [0x62616c])],
  [([0x6469], [0x313339]), ([0x656d616e], [0x2239355f6c6961745f30355f656761705f6b6369745f706f5f22]), ([0x657a697372646461], [0x6574756c6f736261]), ([0x65706f6373], [0x31]), ([0x666564], [0x3432312b323431312b3337332b38373331]), ([0x6c6176], [0x434342377830]), ([0x676573], [0x30]), ([0x65707974], [0x62616c])],
  [([0x6469], [0x323339]), ([0x656d616e], [0x2230355f656761705f345f6b6369745f706f22]), ([0x657a697372646461], [0x6574756c6f736261]), ([0x65706f6373], [0x31]), ([0x666564], [0x323630312b3337332b38373331]), ([0x6c6176], [0x324342377830]), ([0x676573], [0x30]), ([0x65707974], [0x62616c])],
  [([0x6469], [0x333339]), ([0x656d616e], [0x22444022]), ([0x657a697372646461], [0x6574756c6f736261]), ([0x746e65726170], [0x343339]), ([0x666564], [0x3435322b3833312b393132]), ([0x666572], [0x3931322b393132]), ([0x6c6176], [0x464242377830]), ([0x676573], [0x30]), ([0x65707974], [0x62616c])],
  [([0x6469], [0x343339]), ([0x656d616e], [0x2239345f656761705f36365f6b6369745f706f22]), ([0x657a697372646461], [0x6574756c6f736261]), ([0x65706f6373], [0x31]), ([0x666564], [0x3739362b3833312b393132]), ([0x6c6176], [0x453842377830]), ([0x676573], [0x30]), ([0x65707974], [0x62616c])],
  [([0x6469], [0x353339]), ([0x656d616e], [0x22444022]), ([0x657a697372646461], [0x6574756c6f736261]), ([0x746e65726170], [0x363339]), ([0x666564], [0x3030372b313030312b393132]), ([0x666572], [0x3931322b393132]), ([0x6c6176], [0x423842377830]), ([0x676573], [0x30]), ([0x65707974], [0x62616c])],
  [([0x6469], [0x363339]), ([0x656d616e], [0x2239345f656761705f34365f6b6369745f706f22]), ([0x657a697372646461], [0x6574756c6f736261]), ([0x65706f6373], [0x31]), ([0x666564], [0x3937392b313030312b393132]), ([0x6c6176], [0x413542377830]), ([0x676573], [0x30]), ([0x65707974], [0x62616c])],
  [([0x6469], [0x373339]), ([0x656d616e], [0x22444022]), ([0x657a697372646461], [0x6574756c6f736261]), ([0x746e65726170], [0x383339]), ([0x666564], [0x3033382b3436362b393132]), ([0x666572], [0x3931322b393132]), ([0x6c6176], [0x373542377830]), ([0x676573], [0x30]), ([0x65707974], [0x62616c])],
  [([0x6469], [0x383339]), ([0x656d616e], [0x2239345f656761705f32365f6b6369745f706f22]), ([0x657a697372646461], [0x6574756c6f736261]), ([0x65706f6373], [0x31]), ([0x666564], [0x3236322b3436362b393132]), ([0x6c6176], [0x363242377830]), ([0x676573], [0x30]), ([0x65707974], [0x62616c])],
  [([0x6469], [0x393339]), ([0x656d616e], [0x22444022]), ([0x657a697372646461], [0x6574756c6f736261]), ([0x746e65726170], [0x303439]), ([0x666564], [0x3332382b3937372b393132]), ([0x666572], [0x3931322b393132]), ([0x6c6176], [0x333242377830]), ([0x676573], [0x30]), ([0x65707974], [0x62616c])],
  [([0x6469], [0x303439]), ([0x656d616e], [0x2239345f656761705f30365f6b6369745f706f22]), ([0x657a697372646461], [0x6574756c6f736261]), ([0x65706f6373], [0x31]), ([0x666564], [0x3532372b3937372b393132]), ([0x6c6176], [0x324641377830]), ([0x676573], [0x30]), ([0x65707974], [0x62616c])],
  [([0x6469], [0x313439]), ([0x656d616e], [0x22444022]), ([0x657a697372646461], [0x6574756c6f736261]), ([0x746e65726170], [0x323439]), ([0x666564], [0x383831312b3031352b393132]), ([0x666572], [0x3931322b393132]), ([0x6c6176], [0x464541377830]), ([0x676573], [0x30]), ([0x65707974], [0x62616c])],
  [([0x6469], [0x323439]), ([0x656d616e], [0x2239345f656761705f38355f6b6369745f706f22]), ([0x657a697372646461], [0x6574756c6f736261]), ([0x65706f6373], [0x31]), ([0x666564], [0x3638392b3031352b393132]), ([0x6c6176], [0x454241377830]), ([0x676573], [0x30]), ([0x65707974], [0x62616c])],
  [([0x6469], [0x333439]), ([0x656d616e], [0x22444022]), ([0x657a697372646461], [0x6574756c6f736261]), ([0x746e65726170], [0x343439]), ([0x666564], [0x3130382b3430372b393132]), ([0x666572], [0x3931322b393132]), ([0x6c6176], [0x424241377830]), ([0x676573], [0x30]), ([0x65707974], [0x62616c])],
  [([0x6469], [0x343439]), ([0x656d616e], [0x2239345f656761705f36355f6b6369745f706f22]), ([0x657a697372646461], [0x6574756c6f736261]), ([0x65706f6373], [0x31]), ([0x666564], [0x363832312b3430372b393132]), ([0x6c6176], [0x413841377830]), ([0x676573], [0x30]), ([0x65707974], [0x62616c])],
  [([0x6469], [0x353439]), ([0x656d616e], [0x22444022]), ([0x657a697372646461], [0x6574756c6f736261]), ([0x746e65726170], [0x363439]), ([0x666564], [0x323230312b3132362b393132]), ([0x666572], [0x3931322b393132]), ([0x6c6176], [0x373841377830]), ([0x676573], [0x30]), ([0x65707974], [0x62616c])],
  [([0x6469], [0x363439]), ([0x656d616e], [0x2239345f656761705f34355f6b6369745f706f22]), ([0x657a697372646461], [0x6574756c6f736261]), ([0x65706f6373], [0x31]), ([0x666564], [0x313032312b3132362b393132]), ([0x6c6176], [0x363541377830]), ([0x676573], [0x30]), ([0x65707974], [0x62616c])],
  [([0x6469], [0x373439]), ([0x656d616e], [0x2239345f656761705f32355f6b6369745f706f22]), ([0x657a697372646461], [0x6574756c6f736261]), ([0x65706f6373], [0x31]), ([0x666564], [0x3335312b3438382b393132]), ([0x6c6176], [0x423241377830]), ([0x676573], [0x30]), ([0x65707974], [0x62616c])],
  [([0x6469], [0x383439]), ([0x656d616e], [0x2239345f656761705f30355f6b6369745f706f22]), ([0x657a697372646461], [0x6574756c6f736261]), ([0x65706f6373], [0x31]), ([0x666564], [0x3236392b3431312b393132]), ([0x6c6176], [0x333041377830]), ([0x676573], [0x30]), ([0x65707974], [0x62616c])],
  [([0x6469], [0x393439]), ([0x656d616e], [0x2239345f656761705f38345f6b6369745f706f22]), ([0x657a697372646461], [0x6574756c6f736261]), ([0x65706f6373], [0x31]), ([0x666564], [0x3933342b363230312b393132]), ([0x6c6176], [0x414439377830]), ([0x676573], [0x30]), ([0x65707974], [0x62616c])],
  [([0x6469], [0x303539]), ([0x656d616e], [0x2239345f656761705f36345f6b6369745f706f22]), ([0x657a697372646461], [0x6574756c6f736261]), ([0x65706f6373], [0x31]), ([0x666564], [0x343430312b3734362b393132]), ([0x6c6176], [0x354239377830]), ([0x676573], [0x30]), ([0x65707974], [0x62616c])],
  [([0x6469], [0x313539]), ([0x656d616e], [0x2239345f656761705f34345f6b6369745f706f22]), ([0x657a697372646461], [0x6574756c6f736261]), ([0x65706f6373], [0x31]), ([0x666564], [0x3634352b3836322b393132]), ([0x6c6176], [0x463839377830]), ([0x676573], [0x30]), ([0x65707974], [0x62616c])],
  [([0x6469], [0x323539]), ([0x656d616e], [0x2239345f656761705f32345f6b6369745f706f22]), ([0x657a697372646461], [0x6574756c6f736261]), ([0x65706f6373], [0x31]), ([0x666564], [0x37362b32362b393132]), ([0x6c6176], [0x433639377830]), ([0x676573], [0x30]), ([0x65707974], [0x62616c])],
  [([0x6469], [0x333539]), ([0x656d616e], [0x2239345f656761705f30345f6b6369745f706f22]), ([0x657a697372646461], [0x6574756c6f736261]), ([0x65706f6373], [0x31]), ([0x666564], [0x323232312b343131312b393132]), ([0x6c6176], [0x393439377830]), ([0x676573], [0x30]), ([0x65707974], [0x62616c])],
  [([0x6469], [0x343539]), ([0x656d616e], [0x2239345f656761705f38335f6b6369745f706f22]), ([0x657a697372646461], [0x6574756c6f736261]), ([0x65706f6373], [0x31]), ([0x666564], [0x353633312b3930362b393132]), ([0x6c6176], [0x393239377830]), ([0x676573], [0x30]), ([0x65707974], [0x62616c])],
  [([0x6469], [0x353539]), ([0x656d616e], [0x22444022]), ([0x657a697372646461], [0x6574756c6f736261]), ([0x746e65726170], [0x363539]), ([0x666564], [0x333932312b363332312b393132]), ([0x666572], [0x3931322b393132]), ([0x6c6176], [0x363239377830]), ([0x676573], [0x30]), ([0x65707974], [0x62616c])],
  [([0x6469], [0x363539]), ([0x656d616e], [0x2239345f656761705f36335f6b6369745f706f22]), ([0x657a697372646461], [0x6574756c6f736261]), ([0x65706f6373], [0x31]), ([0x666564], [0x3036382b363332312b393132]), ([0x6c6176], [0x354638377830]), ([0x676573], [0x30]), ([0x65707974], [0x62616c])],
  [([0x6469], [0x373539]), ([0x656d616e], [0x2239345f656761705f34335f6b6369745f706f22]), ([0x657a697372646461], [0x6574756c6f736261]), ([0x65706f6373], [0x31]), ([0x666564], [0x343030312b363330312b393132]), ([0x6c6176], [0x464338377830]), ([0x676573], [0x30]), ([0x65707974], [0x62616c])],
  [([0x6469], [0x383539]), ([0x656d616e], [0x2239345f656761705f32335f6b6369745f706f22]), ([0x657a697372646461], [0x6574756c6f736261]), ([0x65706f6373], [0x31]), ([0x666564], [0x3234362b393230312b393132]), ([0x6c6176], [0x334238377830]), ([0x676573], [0x30]), ([0x65707974], [0x62616c])],
  [([0x6469], [0x393539]), ([0x656d616e], [0x2239345f656761705f30335f6b6369745f706f22]), ([0x657a697372646461], [0x6574756c6f736261]), ([0x65706f6373], [0x31]), ([0x666564], [0x373330312b373130312b393132]), ([0x6c6176], [0x363938377830]), ([0x676573], [0x30]), ([0x65707974], [0x62616c])]]

/-- player/iivision.dbg, sym lines 960-991 -/
def symLines30 : List (List (List Nat × List Nat)) := [
  [([0x6469], [0x303639]), ([0x656d616e], [0x2239345f656761705f38325f6b6369745f706f22]), ([0x657a697372646461], [0x6574756c6f736261]), ([0x65706f6373], [0x31]), ([0x666564], [0x3231322b3637312b393132]), ([0x6c6176], [0x443738377830]), ([0x676573], [0x30]), ([0x65707974], [0x62616c])],
  [([0x6469], [0x313639]), ([0x656d616e], [0x2239345f656761705f36325f6b6369745f706f22]), ([0x657a697372646461], [0x6574756c6f736261]), ([0x65706f6373], [0x31]), ([0x666564], [0x3038352b3831322b393132]), ([0x6c6176], [0x333638377830]), ([0x676573], [0x30]), ([0x65707974], [0x62616c])],
  [([0x6469], [0x323639]), ([0x656d616e], [0x2239345f656761705f34325f6b6369745f706f22]), ([0x657a697372646461], [0x6574756c6f736261]), ([0x65706f6373], [0x31]), ([0x666564], [0x3837362b333232312b393132]), ([0x6c6176], [0x433438377830]), ([0x676573], [0x30]), ([0x65707974], [0x62616c])],
  [([0x6469], [0x333639]), ([0x656d616e], [0x2239345f656761705f32325f6b6369745f706f22]), ([0x657a697372646461], [0x6574756c6f736261]), ([0x65706f6373], [0x31]), ([0x666564], [0x323931312b373033312b393132]), ([0x6c6176], [0x353338377830]), ([0x676573], [0x30]), ([0x65707974], [0x62616c])],
  [([0x6469], [0x343639]), ([0x656d616e], [0x2239345f656761705f30325f6b6369745f706f22]), ([0x657a697372646461], [0x6574756c6f736261]), ([0x65706f6373], [0x31]), ([0x666564], [0x32332b373732312b393132]), ([0x6c6176], [0x313238377830]), ([0x676573], [0x30]), ([0x65707974], [0x62616c])],
  [([0x6469], [0x353639]), ([0x656d616e], [0x22444022]), ([0x657a697372646461], [0x6574756c6f736261]), ([0x746e65726170], [0x363639]), ([0x666564], [0x3430352b38392b393132]), ([0x666572], [0x3931322b393132]), ([0x6c6176], [0x453138377830]), ([0x676573], [0x30]), ([0x65707974], [0x62616c])],
  [([0x6469], [0x363639]), ([0x656d616e], [0x2239345f656761705f38315f6b6369745f706f22]), ([0x657a697372646461], [0x6574756c6f736261]), ([0x65706f6373], [0x31]), ([0x666564], [0x323032312b38392b393132]), ([0x6c6176], [0x444537377830]), ([0x676573], [0x30]), ([0x65707974], [0x62616c])],
  [([0x6469], [0x373639]), ([0x656d616e], [0x2239345f656761705f36315f6b6369745f706f22]), ([0x657a697372646461], [0x6574756c6f736261]), ([0x65706f6373], [0x31]), ([0x666564], [0x3032382b3332392b393132]), ([0x6c6176], [0x364437377830]), ([0x676573], [0x30]), ([0x65707974], [0x62616c])],
  [([0x6469], [0x383639]), ([0x656d616e], [0x2239345f656761705f34315f6b6369745f706f22]), ([0x657a697372646461], [0x6574756c6f736261]), ([0x65706f6373], [0x31]), ([0x666564], [0x33312b3430332b393132]), ([0x6c6176], [0x364337377830]), ([0x676573], [0x30]), ([0x65707974], [0x62616c])],
  [([0x6469], [0x393639]), ([0x656d616e], [0x2239345f656761705f32315f6b6369745f706f22]), ([0x657a697372646461], [0x6574756c6f736261]), ([0x65706f6373], [0x31]), ([0x666564], [0x3736372b383431312b393132]), ([0x6c6176], [0x354237377830]), ([0x676573], [0x30]), ([0x65707974], [0x62616c])],
  [([0x6469], [0x303739]), ([0x656d616e], [0x2239345f656761705f30315f6b6369745f706f22]), ([0x657a697372646461], [0x6574756c6f736261]), ([0x65706f6373], [0x31]), ([0x666564], [0x3334392b3334372b393132]), ([0x6c6176], [0x384137377830]), ([0x676573], [0x30]), ([0x65707974], [0x62616c])],
  [([0x6469], [0x313739]), ([0x656d616e], [0x2239345f656761705f385f6b6369745f706f22]), ([0x657a697372646461], [0x6574756c6f736261]), ([0x65706f6373], [0x31]), ([0x666564], [0x3132382b3037332b393132]), ([0x6c6176], [0x413937377830]), ([0x676573], [0x30]), ([0x65707974], [0x62616c])],
  [([0x6469], [0x323739]), ([0x656d616e], [0x22385f6c6961745f39345f656761705f6b6369745f706f5f22]), ([0x657a697372646461], [0x6574756c6f736261]), ([0x65706f6373], [0x31]), ([0x666564], [0x3432312b3033362b3737352b393132]), ([0x6c6176], [0x343937377830]), ([0x676573], [0x30]), ([0x65707974], [0x62616c])],
  [([0x6469], [0x333739]), ([0x656d616e], [0x2232315f6c6961745f39345f656761705f6b6369745f706f5f22]), ([0x657a697372646461], [0x6574756c6f736261]), ([0x65706f6373], [0x31]), ([0x666564], [0x3432312b383430312b3737352b393132]), ([0x666572], [0x393132]), ([0x6c6176], [0x313937377830]), ([0x676573], [0x30]), ([0x65707974], [0x62616c])],
  [([0x6469], [0x343739]), ([0x656d616e], [0x22706d6a5f39345f656761705f365f6b6369745f706f5f22]), ([0x657a697372646461], [0x6574756c6f736261]), ([0x65706f6373], [0x31]), ([0x666564], [0x3735372b3737352b393132]), ([0x666572], [0x3931322b3931322b393132]), ([0x6c6176], [0x373937377830]), ([0x676573], [0x30]), ([0x65707974], [0x62616c])],
  [([0x6469], [0x353739]), ([0x656d616e], [0x2236315f6c6961745f39345f656761705f6b6369745f706f5f22]), ([0x657a697372646461], [0x6574756c6f736261]), ([0x65706f6373], [0x31]), ([0x666564], [0x3432312b3837312b3737352b393132]), ([0x666572], [0x393132]), ([0x6c6176], [0x453837377830]), ([0x676573], [0x30]), ([0x65707974], [0x62616c])],
  [([0x6469], [0x363739]), ([0x656d616e], [0x2230325f6c6961745f39345f656761705f6b6369745f706f5f22]), ([0x657a697372646461], [0x6574756c6f736261]), ([0x65706f6373], [0x31]), ([0x666564], [0x3432312b3238362b3737352b393132]), ([0x666572], [0x3931322b393132]), ([0x6c6176], [0x423837377830]), ([0x676573], [0x30]), ([0x65707974], [0x62616c])],
  [([0x6469], [0x373739]), ([0x656d616e], [0x2235325f6c6961745f39345f656761705f6b6369745f706f5f22]), ([0x657a697372646461], [0x6574756c6f736261]), ([0x65706f6373], [0x31]), ([0x666564], [0x3432312b353431312b3737352b393132]), ([0x6c6176], [0x383837377830]), ([0x676573], [0x30]), ([0x65707974], [0x62616c])],
  [([0x6469], [0x383739]), ([0x656d616e], [0x2239325f6c6961745f39345f656761705f6b6369745f706f5f22]), ([0x657a697372646461], [0x6574756c6f736261]), ([0x65706f6373], [0x31]), ([0x666564], [0x3432312b343632312b3737352b393132]), ([0x6c6176], [0x353837377830]), ([0x676573], [0x30]), ([0x65707974], [0x62616c])],
  [([0x6469], [0x393739]), ([0x656d616e], [0x2234335f6c6961745f39345f656761705f6b6369745f706f5f22]), ([0x657a697372646461], [0x6574756c6f736261]), ([0x65706f6373], [0x31]), ([0x666564], [0x3432312b3538342b3737352b393132]), ([0x666572], [0x393132]), ([0x6c6176], [0x323837377830]), ([0x676573], [0x30]), ([0x65707974], [0x62616c])],
  [([0x6469], [0x303839]), ([0x656d616e], [0x2238335f6c6961745f39345f656761705f6b6369745f706f5f22]), ([0x657a697372646461], [0x6574756c6f736261]), ([0x65706f6373], [0x31]), ([0x666564], [0x3432312b3435352b3737352b393132]), ([0x666572], [0x393132]), ([0x6c6176], [0x463737377830]), ([0x676573], [0x30]), ([0x65707974], [0x62616c])],
  [([0x6469], [0x313839]), ([0x656d616e], [0x2233345f6c6961745f39345f656761705f6b6369745f706f5f22]), ([0x657a697372646461], [0x6574756c6f736261]), ([0x65706f6373], [0x31]), ([0x666564], [0x3432312b383433312b3737352b393132]), ([0x666572], [0x393132]), ([0x6c6176], [0x433737377830]), ([0x676573], [0x30]), ([0x65707974], [0x62616c])],
  [([0x6469], [0x323839]), ([0x656d616e], [0x2237345f6c6961745f39345f656761705f6b6369745f706f5f22]), ([0x657a697372646461], [0x6574756c6f736261]), ([0x65706f6373], [0x31]), ([0x666564], [0x3432312b3637372b3737352b393132]), ([0x6c6176], [0x393737377830]), ([0x676573], [0x30]), ([0x65707974], [0x62616c])],
  [([0x6469], [0x333839]), ([0x656d616e], [0x2232355f6c6961745f39345f656761705f6b6369745f706f5f22]), ([0x657a697372646461], [0x6574756c6f736261]), ([0x65706f6373], [0x31]), ([0x666564], [0x3432312b3137362b3737352b393132]), ([0x666572], [0x393132]), ([0x6c6176], [0x363737377830]), ([0x676573], [0x30]), ([0x65707974], [0x62616c])],
  [([0x6469], [0x343839]), ([0x656d616e], [0x2236355f6c6961745f39345f656761705f6b6369745f706f5f22]), ([0x657a697372646461], [0x6574756c6f736261]), ([0x65706f6373], [0x31]), ([0x666564], [0x3432312b3839342b3737352b393132]), ([0x666572], [0x393132]), ([0x6c6176], [0x333737377830]), ([0x676573], [0x30]), ([0x65707974], [0x62616c])],
  [([0x6469], [0x353839]), ([0x656d616e], [0x2230365f6c6961745f39345f656761705f6b6369745f706f5f22]), ([0x657a697372646461], [0x6574756c6f736261]), ([0x65706f6373], [0x31]), ([0x666564], [0x3432312b353632312b3737352b393132]), ([0x6c6176], [0x303737377830]), ([0x676573], [0x30]), ([0x65707974], [0x62616c])],
  [([0x6469], [0x363839]), ([0x656d616e], [0x2239345f656761705f365f6b6369745f706f22]), ([0x657a697372646461], [0x6574756c6f736261]), ([0x65706f6373], [0x31]), ([0x666564], [0x3432382b3737352b393132]), ([0x6c6176], [0x373637377830]), ([0x676573], [0x30]), ([0x65707974], [0x62616c])],
  [([0x6469], [0x373839]), ([0x656d616e], [0x22375f6c6961745f39345f656761705f6b6369745f706f5f22]), ([0x657a697372646461], [0x6574756c6f736261]), ([0x65706f6373], [0x31]), ([0x666564], [0x3432312b3330392b3337332b393132]), ([0x6c6176], [0x313637377830]), ([0x676573], [0x30]), ([0x65707974], [0x62616c])],
  [([0x6469], [0x383839]), ([0x656d616e], [0x2231315f6c6961745f39345f656761705f6b6369745f706f5f22]), ([0x657a697372646461], [0x6574756c6f736261]), ([0x65706f6373], [0x31]), ([0x666564], [0x3432312b333732312b3337332b393132]), ([0x6c6176], [0x453537377830]), ([0x676573], [0x30]), ([0x65707974], [0x62616c])],
  [([0x6469], [0x393839]), ([0x656d616e], [0x22706d6a5f39345f656761705f345f6b6369745f706f5f22]), ([0x657a697372646461], [0x6574756c6f736261]), ([0x65706f6373], [0x31]), ([0x666564], [0x3134322b3337332b393132]), ([0x666572], [0x3931322b393132]), ([0x6c6176], [0x343637377830]), ([0x676573], [0x30]), ([0x65707974], [0x62616c])],
  [([0x6469], [0x303939]), ([0x656d616e], [0x2235315f6c6961745f39345f656761705f6b6369745f706f5f22]), ([0x657a697372646461], [0x6574756c6f736261]), ([0x65706f6373], [0x31]), ([0x666564], [0x3432312b3538352b3337332b393132]), ([0x666572], [0x393132]), ([0x6c6176], [0x423537377830]), ([0x676573], [0x30]), ([0x65707974], [0x62616c])],
  [([0x6469], [0x313939]), ([0x656d616e], [0x2239315f6c6961745f39345f656761705f6b6369745f706f5f22]), ([0x657a697372646461], [0x6574756c6f736261]), ([0x65706f6373], [0x31]), ([0x666564], [0x3432312b3737322b3337332b393132]), ([0x666572], [0x393132]), ([0x6c6176], [0x383537377830]), ([0x676573], [0x30]), ([0x65707974], [0x62616c])]]

/-- player/iivision.dbg, sym lines 992-1023 -/
def symLines31 : List (List (List Nat × List Nat)) := [
  [([0x6469], [0x323939]), ([0x656d616e], [0x2234325f6c6961745f39345f656761705f6b6369745f706f5f22]), ([0x657a697372646461], [0x6574756c6f736261]), ([0x65706f6373], [0x31]), ([0x666564], [0x3432312b3831352b3337332b393132]), ([0x666572], [0x3931322b393132]), ([0x6c6176], [0x353537377830]), ([0x676573], [0x30]), ([0x65707974], [0x62616c])],
  [([0x6469], [0x333939]), ([0x656d616e], [0x2238325f6c6961745f39345f656761705f6b6369745f706f5f22]), ([0x657a697372646461], [0x6574756c6f736261]), ([0x65706f6373], [0x31]), ([0x666564], [0x3432312b3436312b3337332b393132]), ([0x666572], [0x393132]), ([0x6c6176], [0x323537377830]), ([0x676573], [0x30]), ([0x65707974], [0x62616c])],
  [([0x6469], [0x343939]), ([0x656d616e], [0x2233335f6c6961745f39345f656761705f6b6369745f706f5f22]), ([0x657a697372646461], [0x6574756c6f736261]), ([0x65706f6373], [0x31]), ([0x666564], [0x3432312b3435312b3337332b393132]), ([0x666572], [0x393132]), ([0x6c6176], [0x463437377830]), ([0x676573], [0x30]), ([0x65707974], [0x62616c])],
  [([0x6469], [0x353939]), ([0x656d616e], [0x2237335f6c6961745f39345f656761705f6b6369745f706f5f22]), ([0x657a697372646461], [0x6574756c6f736261]), ([0x65706f6373], [0x31]), ([0x666564], [0x3432312b373532312b3337332b393132]), ([0x666572], [0x393132]), ([0x6c6176], [0x433437377830]), ([0x676573], [0x30]), ([0x65707974], [0x62616c])],
  [([0x6469], [0x363939]), ([0x656d616e], [0x2232345f6c6961745f39345f656761705f6b6369745f706f5f22]), ([0x657a697372646461], [0x6574756c6f736261]), ([0x65706f6373], [0x31]), ([0x666564], [0x3432312b323033312b3337332b393132]), ([0x666572], [0x3931322b393132]), ([0x6c6176], [0x393437377830]), ([0x676573], [0x30]), ([0x65707974], [0x62616c])],
  [([0x6469], [0x373939]), ([0x656d616e], [0x2236345f6c6961745f39345f656761705f6b6369745f706f5f22]), ([0x657a697372646461], [0x6574756c6f736261]), ([0x65706f6373], [0x31]), ([0x666564], [0x3432312b3530382b3337332b393132]), ([0x666572], [0x393132]), ([0x6c6176], [0x363437377830]), ([0x676573], [0x30]), ([0x65707974], [0x62616c])],
  [([0x6469], [0x383939]), ([0x656d616e], [0x2231355f6c6961745f39345f656761705f6b6369745f706f5f22]), ([0x657a697372646461], [0x6574756c6f736261]), ([0x65706f6373], [0x31]), ([0x666564], [0x3432312b343231312b3337332b393132]), ([0x666572], [0x393132]), ([0x6c6176], [0x333437377830]), ([0x676573], [0x30]), ([0x65707974], [0x62616c])],
  [([0x6469], [0x393939]), ([0x656d616e], [0x2235355f6c6961745f39345f656761705f6b6369745f706f5f22]), ([0x657a697372646461], [0x6574756c6f736261]), ([0x65706f6373], [0x31]), ([0x666564], [0x3432312b3332332b3337332b393132]), ([0x666572], [0x393132]), ([0x6c6176], [0x303437377830]), ([0x676573], [0x30]), ([0x65707974], [0x62616c])],
  [([0x6469], [0x30303031]), ([0x656d616e], [0x2239355f6c6961745f39345f656761705f6b6369745f706f5f22]), ([0x657a697372646461], [0x6574756c6f736261]), ([0x65706f6373], [0x31]), ([0x666564], [0x3432312b323431312b3337332b393132]), ([0x6c6176], [0x443337377830]), ([0x676573], [0x30]), ([0x65707974], [0x62616c])],
  [([0x6469], [0x31303031]), ([0x656d616e], [0x2239345f656761705f345f6b6369745f706f22]), ([0x657a697372646461], [0x6574756c6f736261]), ([0x65706f6373], [0x31]), ([0x666564], [0x323630312b3337332b393132]), ([0x6c6176], [0x333337377830]), ([0x676573], [0x30]), ([0x65707974], [0x62616c])],
  [([0x6469], [0x32303031]), ([0x656d616e], [0x22444022]), ([0x657a697372646461], [0x6574756c6f736261]), ([0x746e65726170], [0x33303031]), ([0x666564], [0x3435322b3833312b383439]), ([0x666572], [0x3834392b383439]), ([0x6c6176], [0x303337377830]), ([0x676573], [0x30]), ([0x65707974], [0x62616c])],
  [([0x6469], [0x33303031]), ([0x656d616e], [0x2238345f656761705f36365f6b6369745f706f22]), ([0x657a697372646461], [0x6574756c6f736261]), ([0x65706f6373], [0x31]), ([0x666564], [0x3739362b3833312b383439]), ([0x6c6176], [0x464636377830]), ([0x676573], [0x30]), ([0x65707974], [0x62616c])],
  [([0x6469], [0x34303031]), ([0x656d616e], [0x22444022]), ([0x657a697372646461], [0x6574756c6f736261]), ([0x746e65726170], [0x35303031]), ([0x666564], [0x3030372b313030312b383439]), ([0x666572], [0x3834392b383439]), ([0x6c6176], [0x434636377830]), ([0x676573], [0x30]), ([0x65707974], [0x62616c])],
  [([0x6469], [0x35303031]), ([0x656d616e], [0x2238345f656761705f34365f6b6369745f706f22]), ([0x657a697372646461], [0x6574756c6f736261]), ([0x65706f6373], [0x31]), ([0x666564], [0x3937392b313030312b383439]), ([0x6c6176], [0x424336377830]), ([0x676573], [0x30]), ([0x65707974], [0x62616c])],
  [([0x6469], [0x36303031]), ([0x656d616e], [0x22444022]), ([0x657a697372646461], [0x6574756c6f736261]), ([0x746e65726170], [0x37303031]), ([0x666564], [0x3033382b3436362b383439]), ([0x666572], [0x3834392b383439]), ([0x6c6176], [0x384336377830]), ([0x676573], [0x30]), ([0x65707974], [0x62616c])],
  [([0x6469], [0x37303031]), ([0x656d616e], [0x2238345f656761705f32365f6b6369745f706f22]), ([0x657a697372646461], [0x6574756c6f736261]), ([0x65706f6373], [0x31]), ([0x666564], [0x3236322b3436362b383439]), ([0x6c6176], [0x373936377830]), ([0x676573], [0x30]), ([0x65707974], [0x62616c])],
  [([0x6469], [0x38303031]), ([0x656d616e], [0x22444022]), ([0x657a697372646461], [0x6574756c6f736261]), ([0x746e65726170], [0x39303031]), ([0x666564], [0x3332382b3937372b383439]), ([0x666572], [0x3834392b383439]), ([0x6c6176], [0x343936377830]), ([0x676573], [0x30]), ([0x65707974], [0x62616c])],
  [([0x6469], [0x39303031]), ([0x656d616e], [0x2238345f656761705f30365f6b6369745f706f22]), ([0x657a697372646461], [0x6574756c6f736261]), ([0x65706f6373], [0x31]), ([0x666564], [0x3532372b3937372b383439]), ([0x6c6176], [0x333636377830]), ([0x676573], [0x30]), ([0x65707974], [0x62616c])],
  [([0x6469], [0x30313031]), ([0x656d616e], [0x22444022]), ([0x657a697372646461], [0x6574756c6f736261]), ([0x746e65726170], [0x31313031]), ([0x666564], [0x383831312b3031352b383439]), ([0x666572], [0x3834392b383439]), ([0x6c6176], [0x303636377830]), ([0x676573], [0x30]), ([0x65707974], [0x62616c])],
  [([0x6469], [0x31313031]), ([0x656d616e], [0x2238345f656761705f38355f6b6369745f706f22]), ([0x657a697372646461], [0x6574756c6f736261]), ([0x65706f6373], [0x31]), ([0x666564], [0x3638392b3031352b383439]), ([0x6c6176], [0x463236377830]), ([0x676573], [0x30]), ([0x65707974], [0x62616c])],
  [([0x6469], [0x32313031]), ([0x656d616e], [0x22444022]), ([0x657a697372646461], [0x6574756c6f736261]), ([0x746e65726170], [0x33313031]), ([0x666564], [0x3130382b3430372b383439]), ([0x666572], [0x3834392b383439]), ([0x6c6176], [0x433236377830]), ([0x676573], [0x30]), ([0x65707974], [0x62616c])],
  [([0x6469], [0x33313031]), ([0x656d616e], [0x2238345f656761705f36355f6b6369745f706f22]), ([0x657a697372646461], [0x6574756c6f736261]), ([0x65706f6373], [0x31]), ([0x666564], [0x363832312b3430372b383439]), ([0x6c6176], [0x424635377830]), ([0x676573], [0x30]), ([0x65707974], [0x62616c])],
  [([0x6469], [0x34313031]), ([0x656d616e], [0x22444022]), ([0x657a697372646461], [0x6574756c6f736261]), ([0x746e65726170], [0x35313031]), ([0x666564], [0x323230312b3132362b383439]), ([0x666572], [0x3834392b383439]), ([0x6c6176], [0x384635377830]), ([0x676573], [0x30]), ([0x65707974], [0x62616c])],
  [([0x6469], [0x35313031]), ([0x656d616e], [0x2238345f656761705f34355f6b6369745f706f22]), ([0x657a697372646461], [0x6574756c6f736261]), ([0x65706f6373], [0x31]), ([0x666564], [0x313032312b3132362b383439]), ([0x6c6176], [0x374335377830]), ([0x676573], [0x30]), ([0x65707974], [0x62616c])],
  [([0x6469], [0x36313031]), ([0x656d616e], [0x2238345f656761705f32355f6b6369745f706f22]), ([0x657a697372646461], [0x6574756c6f736261]), ([0x65706f6373], [0x31]), ([0x666564], [0x3335312b3438382b383439]), ([0x6c6176], [0x433935377830]), ([0x676573], [0x30]), ([0x65707974], [0x62616c])],
  [([0x6469], [0x37313031]), ([0x656d616e], [0x2238345f656761705f30355f6b6369745f706f22]), ([0x657a697372646461], [0x6574756c6f736261]), ([0x65706f6373], [0x31]), ([0x666564], [0x3236392b3431312b383439]), ([0x6c6176], [0x343735377830]), ([0x676573], [0x30]), ([0x65707974], [0x62616c])],
  [([0x6469], [0x38313031]), ([0x656d616e], [0x2238345f656761705f38345f6b6369745f706f22]), ([0x657a697372646461], [0x6574756c6f736261]), ([0x65706f6373], [0x31]), ([0x666564], [0x3933342b363230312b383439]), ([0x6c6176], [0x423435377830]), ([0x676573], [0x30]), ([0x65707974], [0x62616c])],
  [([0x6469], [0x39313031]), ([0x656d616e], [0x2238345f656761705f36345f6b6369745f706f22]), ([0x657a697372646461], [0x6574756c6f736261]), ([0x65706f6373], [0x31]), ([0x666564], [0x343430312b3734362b383439]), ([0x6c6176], [0x363235377830]), ([0x676573], [0x30]), ([0x65707974], [0x62616c])],
  [([0x6469], [0x30323031]), ([0x656d616e], [0x2238345f656761705f34345f6b6369745f706f22]), ([0x657a697372646461], [0x6574756c6f736261]), ([0x65706f6373], [0x31]), ([0x666564], [0x3634352b3836322b383439]), ([0x6c6176], [0x303035377830]), ([0x676573], [0x30]), ([0x65707974], [0x62616c])],
  [([0x6469], [0x31323031]), ([0x656d616e], [0x2238345f656761705f32345f6b6369745f706f22]), ([0x657a697372646461], [0x6574756c6f736261]), ([0x65706f6373], [0x31]), ([0x666564], [0x37362b32362b383439]), ([0x6c6176], [0x444434377830]), ([0x676573], [0x30]), ([0x65707974], [0x62616c])],
  [([0x6469], [0x32323031]), ([0x656d616e], [0x2238345f656761705f30345f6b6369745f706f22]), ([0x657a697372646461], [0x6574756c6f736261]), ([0x65706f6373], [0x31]), ([0x666564], [0x323232312b343131312b383439]), ([0x6c6176], [0x414234377830]), ([0x676573], [0x30]), ([0x65707974], [0x62616c])],
  [([0x6469], [0x33323031]), ([0x656d616e], [0x2238345f656761705f38335f6b6369745f706f22]), ([0x657a697372646461], [0x6574756c6f736261]), ([0x65706f6373], [0x31]), ([0x666564], [0x353633312b3930362b383439]), ([0x6c6176], [0x413934377830]), ([0x676573], [0x30]), ([0x65707974], [0x62616c])]]

/-- player/iivision.dbg, sym lines 1024-1055 -/
def symLines32 : List (List (List Nat × List Nat)) := [
  [([0x6469], [0x34323031]), ([0x656d616e], [0x22444022]), ([0x657a697372646461], [0x6574756c6f736261]), ([0x746e65726170], [0x35323031]), ([0x666564], [0x333932312b363332312b383439]), ([0x666572], [0x3834392b383439]), ([0x6c6176], [0x373934377830]), ([0x676573], [0x30]), ([0x65707974], [0x62616c])],
  [([0x6469], [0x35323031]), ([0x656d616e], [0x2238345f656761705f36335f6b6369745f706f22]), ([0x657a697372646461], [0x6574756c6f736261]), ([0x65706f6373], [0x31]), ([0x666564], [0x3036382b363332312b383439]), ([0x6c6176], [0x363634377830]), ([0x676573], [0x30]), ([0x65707974], [0x62616c])],
  [([0x6469], [0x36323031]), ([0x656d616e], [0x2238345f656761705f34335f6b6369745f706f22]), ([0x657a697372646461], [0x6574756c6f736261]), ([0x65706f6373], [0x31]), ([0x666564], [0x343030312b363330312b383439]), ([0x6c6176], [0x303434377830]), ([0x676573], [0x30]), ([0x65707974], [0x62616c])],
  [([0x6469], [0x37323031]), ([0x656d616e], [0x2238345f656761705f32335f6b6369745f706f22]), ([0x657a697372646461], [0x6574756c6f736261]), ([0x65706f6373], [0x31]), ([0x666564], [0x3234362b393230312b383439]), ([0x6c6176], [0x343234377830]), ([0x676573], [0x30]), ([0x65707974], [0x62616c])],
  [([0x6469], [0x38323031]), ([0x656d616e], [0x2238345f656761705f30335f6b6369745f706f22]), ([0x657a697372646461], [0x6574756c6f736261]), ([0x65706f6373], [0x31]), ([0x666564], [0x373330312b373130312b383439]), ([0x6c6176], [0x373034377830]), ([0x676573], [0x30]), ([0x65707974], [0x62616c])],
  [([0x6469], [0x39323031]), ([0x656d616e], [0x2238345f656761705f38325f6b6369745f706f22]), ([0x657a697372646461], [0x6574756c6f736261]), ([0x65706f6373], [0x31]), ([0x666564], [0x3231322b3637312b383439]), ([0x6c6176], [0x454533377830]), ([0x676573], [0x30]), ([0x65707974], [0x62616c])],
  [([0x6469], [0x30333031]), ([0x656d616e], [0x2238345f656761705f36325f6b6369745f706f22]), ([0x657a697372646461], [0x6574756c6f736261]), ([0x65706f6373], [0x31]), ([0x666564], [0x3038352b3831322b383439]), ([0x6c6176], [0x344433377830]), ([0x676573], [0x30]), ([0x65707974], [0x62616c])],
  [([0x6469], [0x31333031]), ([0x656d616e], [0x2238345f656761705f34325f6b6369745f706f22]), ([0x657a697372646461], [0x6574756c6f736261]), ([0x65706f6373], [0x31]), ([0x666564], [0x3837362b333232312b383439]), ([0x6c6176], [0x444233377830]), ([0x676573], [0x30]), ([0x65707974], [0x62616c])],
  [([0x6469], [0x32333031]), ([0x656d616e], [0x2238345f656761705f32325f6b6369745f706f22]), ([0x657a697372646461], [0x6574756c6f736261]), ([0x65706f6373], [0x31]), ([0x666564], [0x323931312b373033312b383439]), ([0x6c6176], [0x364133377830]), ([0x676573], [0x30]), ([0x65707974], [0x62616c])],
  [([0x6469], [0x33333031]), ([0x656d616e], [0x2238345f656761705f30325f6b6369745f706f22]), ([0x657a697372646461], [0x6574756c6f736261]), ([0x65706f6373], [0x31]), ([0x666564], [0x32332b373732312b383439]), ([0x6c6176], [0x323933377830]), ([0x676573], [0x30]), ([0x65707974], [0x62616c])],
  [([0x6469], [0x34333031]), ([0x656d616e], [0x22444022]), ([0x657a697372646461], [0x6574756c6f736261]), ([0x746e65726170], [0x35333031]), ([0x666564], [0x3430352b38392b383439]), ([0x666572], [0x3834392b383439]), ([0x6c6176], [0x463833377830]), ([0x676573], [0x30]), ([0x65707974], [0x62616c])],
  [([0x6469], [0x35333031]), ([0x656d616e], [0x2238345f656761705f38315f6b6369745f706f22]), ([0x657a697372646461], [0x6574756c6f736261]), ([0x65706f6373], [0x31]), ([0x666564], [0x323032312b38392b383439]), ([0x6c6176], [0x453533377830]), ([0x676573], [0x30]), ([0x65707974], [0x62616c])],
  [([0x6469], [0x36333031]), ([0x656d616e], [0x2238345f656761705f36315f6b6369745f706f22]), ([0x657a697372646461], [0x6574756c6f736261]), ([0x65706f6373], [0x31]), ([0x666564], [0x3032382b3332392b383439]), ([0x6c6176], [0x373433377830]), ([0x676573], [0x30]), ([0x65707974], [0x62616c])],
  [([0x6469], [0x37333031]), ([0x656d616e], [0x2238345f656761705f34315f6b6369745f706f22]), ([0x657a697372646461], [0x6574756c6f736261]), ([0x65706f6373], [0x31]), ([0x666564], [0x33312b3430332b383439]), ([0x6c6176], [0x373333377830]), ([0x676573], [0x30]), ([0x65707974], [0x62616c])],
  [([0x6469], [0x38333031]), ([0x656d616e], [0x2238345f656761705f32315f6b6369745f706f22]), ([0x657a697372646461], [0x6574756c6f736261]), ([0x65706f6373], [0x31]), ([0x666564], [0x3736372b383431312b383439]), ([0x6c6176], [0x363233377830]), ([0x676573], [0x30]), ([0x65707974], [0x62616c])],
  [([0x6469], [0x39333031]), ([0x656d616e], [0x2238345f656761705f30315f6b6369745f706f22]), ([0x657a697372646461], [0x6574756c6f736261]), ([0x65706f6373], [0x31]), ([0x666564], [0x3334392b3334372b383439]), ([0x6c6176], [0x393133377830]), ([0x676573], [0x30]), ([0x65707974], [0x62616c])],
  [([0x6469], [0x30343031]), ([0x656d616e], [0x2238345f656761705f385f6b6369745f706f22]), ([0x657a697372646461], [0x6574756c6f736261]), ([0x65706f6373], [0x31]), ([0x666564], [0x3132382b3037332b383439]), ([0x6c6176], [0x423033377830]), ([0x676573], [0x30]), ([0x65707974], [0x62616c])],
  [([0x6469], [0x31343031]), ([0x656d616e], [0x22385f6c6961745f38345f656761705f6b6369745f706f5f22]), ([0x657a697372646461], [0x6574756c6f736261]), ([0x65706f6373], [0x31]), ([0x666564], [0x3432312b3033362b3737352b383439]), ([0x6c6176], [0x353033377830]), ([0x676573], [0x30]), ([0x65707974], [0x62616c])],
  [([0x6469], [0x32343031]), ([0x656d616e], [0x2232315f6c6961745f38345f656761705f6b6369745f706f5f22]), ([0x657a697372646461], [0x6574756c6f736261]), ([0x65706f6373], [0x31]), ([0x666564], [0x3432312b383430312b3737352b383439]), ([0x666572], [0x383439]), ([0x6c6176], [0x323033377830]), ([0x676573], [0x30]), ([0x65707974], [0x62616c])],
  [([0x6469], [0x33343031]), ([0x656d616e], [0x22706d6a5f38345f656761705f365f6b6369745f706f5f22]), ([0x657a697372646461], [0x6574756c6f736261]), ([0x65706f6373], [0x31]), ([0x666564], [0x3735372b3737352b383439]), ([0x666572], [0x3834392b3834392b383439]), ([0x6c6176], [0x383033377830]), ([0x676573], [0x30]), ([0x65707974], [0x62616c])],
  [([0x6469], [0x34343031]), ([0x656d616e], [0x2236315f6c6961745f38345f656761705f6b6369745f706f5f22]), ([0x657a697372646461], [0x6574756c6f736261]), ([0x65706f6373], [0x31]), ([0x666564], [0x3432312b3837312b3737352b383439]), ([0x666572], [0x383439]), ([0x6c6176], [0x464632377830]), ([0x676573], [0x30]), ([0x65707974], [0x62616c])],
  [([0x6469], [0x35343031]), ([0x656d616e], [0x2230325f6c6961745f38345f656761705f6b6369745f706f5f22]), ([0x657a697372646461], [0x6574756c6f736261]), ([0x65706f6373], [0x31]), ([0x666564], [0x3432312b3238362b3737352b383439]), ([0x666572], [0x3834392b383439]), ([0x6c6176], [0x434632377830]), ([0x676573], [0x30]), ([0x65707974], [0x62616c])],
  [([0x6469], [0x36343031]), ([0x656d616e], [0x2235325f6c6961745f38345f656761705f6b6369745f706f5f22]), ([0x657a697372646461], [0x6574756c6f736261]), ([0x65706f6373], [0x31]), ([0x666564], [0x3432312b353431312b3737352b383439]), ([0x6c6176], [0x394632377830]), ([0x676573], [0x30]), ([0x65707974], [0x62616c])],
  [([0x6469], [0x37343031]), ([0x656d616e], [0x2239325f6c6961745f38345f656761705f6b6369745f706f5f22]), ([0x657a697372646461], [0x6574756c6f736261]), ([0x65706f6373], [0x31]), ([0x666564], [0x3432312b343632312b3737352b383439]), ([0x6c6176], [0x364632377830]), ([0x676573], [0x30]), ([0x65707974], [0x62616c])],
  [([0x6469], [0x38343031]), ([0x656d616e], [0x2234335f6c6961745f38345f656761705f6b6369745f706f5f22]), ([0x657a697372646461], [0x6574756c6f736261]), ([0x65706f6373], [0x31]), ([0x666564], [0x3432312b3538342b3737352b383439]), ([0x666572], [0x383439]), ([0x6c6176], [0x334632377830]), ([0x676573], [0x30]), ([0x65707974], [0x62616c])],
  [([0x6469], [0x39343031]), ([0x656d616e], [0x2238335f6c6961745f38345f656761705f6b6369745f706f5f22]), ([0x657a697372646461], [0x6574756c6f736261]), ([0x65706f6373], [0x31]), ([0x666564], [0x3432312b3435352b3737352b383439]), ([0x666572], [0x383439]), ([0x6c6176], [0x304632377830]), ([0x676573], [0x30]), ([0x65707974], [0x62616c])],
  [([0x6469], [0x30353031]), ([0x656d616e], [0x2233345f6c6961745f38345f656761705f6b6369745f706f5f22]), ([0x657a697372646461], [0x6574756c6f736261]), ([0x65706f6373], [0x31]), ([0x666564], [0x3432312b383433312b3737352b383439]), ([0x666572], [0x383439]), ([0x6c6176], [0x444532377830]), ([0x676573], [0x30]), ([0x65707974], [0x62616c])],
  [([0x6469], [0x31353031]), ([0x656d616e], [0x2237345f6c6961745f38345f656761705f6b6369745f706f5f22]), ([0x657a697372646461], [0x6574756c6f736261]), ([0x65706f6373], [0x31]), ([0x666564], [0x3432312b3637372b3737352b383439]), ([0x6c6176], [0x414532377830]), ([0x676573], [0x30]), ([0x65707974], [0x62616c])],
  [([0x6469], [0x32353031]), ([0x656d616e], [0x2232355f6c6961745f38345f656761705f6b6369745f706f5f22]), ([0x657a697372646461], [0x6574756c6f736261]), ([0x65706f6373], [0x31]), ([0x666564], [0x3432312b3137362b3737352b383439]), ([0x666572], [0x383439]), ([0x6c6176], [0x374532377830]), ([0x676573], [0x30]), ([0x65707974], [0x62616c])],
  [([0x6469], [0x33353031]), ([0x656d616e], [0x2236355f6c6961745f38345f656761705f6b6369745f706f5f22]), ([0x657a697372646461], [0x6574756c6f736261]), ([0x65706f6373], [0x31]), ([0x666564], [0x3432312b3839342b3737352b383439]), ([0x666572], [0x383439]), ([0x6c6176], [0x344532377830]), ([0x676573], [0x30]), ([0x65707974], [0x62616c])],
  [([0x6469], [0x34353031]), ([0x656d616e], [0x2230365f6c6961745f38345f656761705f6b6369745f706f5f22]), ([0x657a697372646461], [0x6574756c6f736261]), ([0x65706f6373], [0x31]), ([0x666564], [0x3432312b353632312b3737352b383439]), ([0x6c6176], [0x314532377830]), ([0x676573], [0x30]), ([0x65707974], [0x62616c])],
  [([0x6469], [0x35353031]), ([0x656d616e], [0x2238345f656761705f365f6b6369745f706f22]), ([0x657a697372646461], [0x6574756c6f736261]), ([0x65706f6373], [0x31]), ([0x666564], [0x3432382b3737352b383439]), ([0x6c6176], [0x384432377830]), ([0x676573], [0x30]), ([0x65707974], [0x62616c])]]

/-- player/iivision.dbg, sym lines 1056-1087 -/
def symLines33 : List (List (List Nat × List Nat)) := [
  [([0x6469], [0x36353031]), ([0x656d616e], [0x22375f6c6961745f38345f656761705f6b6369745f706f5f22]), ([0x657a697372646461], [0x6574756c6f736261]), ([0x65706f6373], [0x31]), ([0x666564], [0x3432312b3330392b3337332b383439]), ([0x6c6176], [0x324432377830]), ([0x676573], [0x30]), ([0x65707974], [0x62616c])],
  [([0x6469], [0x37353031]), ([0x656d616e], [0x2231315f6c6961745f38345f656761705f6b6369745f706f5f22]), ([0x657a697372646461], [0x6574756c6f736261]), ([0x65706f6373], [0x31]), ([0x666564], [0x3432312b333732312b3337332b383439]), ([0x6c6176], [0x464332377830]), ([0x676573], [0x30]), ([0x65707974], [0x62616c])],
  [([0x6469], [0x38353031]), ([0x656d616e], [0x22706d6a5f38345f656761705f345f6b6369745f706f5f22]), ([0x657a697372646461], [0x6574756c6f736261]), ([0x65706f6373], [0x31]), ([0x666564], [0x3134322b3337332b383439]), ([0x666572], [0x3834392b383439]), ([0x6c6176], [0x354432377830]), ([0x676573], [0x30]), ([0x65707974], [0x62616c])],
  [([0x6469], [0x39353031]), ([0x656d616e], [0x2235315f6c6961745f38345f656761705f6b6369745f706f5f22]), ([0x657a697372646461], [0x6574756c6f736261]), ([0x65706f6373], [0x31]), ([0x666564], [0x3432312b3538352b3337332b383439]), ([0x666572], [0x383439]), ([0x6c6176], [0x434332377830]), ([0x676573], [0x30]), ([0x65707974], [0x62616c])],
  [([0x6469], [0x30363031]), ([0x656d616e], [0x2239315f6c6961745f38345f656761705f6b6369745f706f5f22]), ([0x657a697372646461], [0x6574756c6f736261]), ([0x65706f6373], [0x31]), ([0x666564], [0x3432312b3737322b3337332b383439]), ([0x666572], [0x383439]), ([0x6c6176], [0x394332377830]), ([0x676573], [0x30]), ([0x65707974], [0x62616c])],
  [([0x6469], [0x31363031]), ([0x656d616e], [0x2234325f6c6961745f38345f656761705f6b6369745f706f5f22]), ([0x657a697372646461], [0x6574756c6f736261]), ([0x65706f6373], [0x31]), ([0x666564], [0x3432312b3831352b3337332b383439]), ([0x666572], [0x3834392b383439]), ([0x6c6176], [0x364332377830]), ([0x676573], [0x30]), ([0x65707974], [0x62616c])],
  [([0x6469], [0x32363031]), ([0x656d616e], [0x2238325f6c6961745f38345f656761705f6b6369745f706f5f22]), ([0x657a697372646461], [0x6574756c6f736261]), ([0x65706f6373], [0x31]), ([0x666564], [0x3432312b3436312b3337332b383439]), ([0x666572], [0x383439]), ([0x6c6176], [0x334332377830]), ([0x676573], [0x30]), ([0x65707974], [0x62616c])],
  [([0x6469], [0x33363031]), ([0x656d616e], [0x2233335f6c6961745f38345f656761705f6b6369745f706f5f22]), ([0x657a697372646461], [0x6574756c6f736261]), ([0x65706f6373], [0x31]), ([0x666564], [0x3432312b3435312b3337332b383439]), ([0x666572], [0x383439]), ([0x6c6176], [0x304332377830]), ([0x676573], [0x30]), ([0x65707974], [0x62616c])],
  [([0x6469], [0x34363031]), ([0x656d616e], [0x2237335f6c6961745f38345f656761705f6b6369745f706f5f22]), ([0x657a697372646461], [0x6574756c6f736261]), ([0x65706f6373], [0x31]), ([0x666564], [0x3432312b373532312b3337332b383439]), ([0x666572], [0x383439]), ([0x6c6176], [0x444232377830]), ([0x676573], [0x30]), ([0x65707974], [0x62616c])],
  [([0x6469], [0x35363031]), ([0x656d616e], [0x2232345f6c6961745f38345f656761705f6b6369745f706f5f22]), ([0x657a697372646461], [0x6574756c6f736261]), ([0x65706f6373], [0x31]), ([0x666564], [0x3432312b323033312b3337332b383439]), ([0x666572], [0x3834392b383439]), ([0x6c6176], [0x414232377830]), ([0x676573], [0x30]), ([0x65707974], [0x62616c])],
  [([0x6469], [0x36363031]), ([0x656d616e], [0x2236345f6c6961745f38345f656761705f6b6369745f706f5f22]), ([0x657a697372646461], [0x6574756c6f736261]), ([0x65706f6373], [0x31]), ([0x666564], [0x3432312b3530382b3337332b383439]), ([0x666572], [0x383439]), ([0x6c6176], [0x374232377830]), ([0x676573], [0x30]), ([0x65707974], [0x62616c])],
  [([0x6469], [0x37363031]), ([0x656d616e], [0x2231355f6c6961745f38345f656761705f6b6369745f706f5f22]), ([0x657a697372646461], [0x6574756c6f736261]), ([0x65706f6373], [0x31]), ([0x666564], [0x3432312b343231312b3337332b383439]), ([0x666572], [0x383439]), ([0x6c6176], [0x344232377830]), ([0x676573], [0x30]), ([0x65707974], [0x62616c])],
  [([0x6469], [0x38363031]), ([0x656d616e], [0x2235355f6c6961745f38345f656761705f6b6369745f706f5f22]), ([0x657a697372646461], [0x6574756c6f736261]), ([0x65706f6373], [0x31]), ([0x666564], [0x3432312b3332332b3337332b383439]), ([0x666572], [0x383439]), ([0x6c6176], [0x314232377830]), ([0x676573], [0x30]), ([0x65707974], [0x62616c])],
  [([0x6469], [0x39363031]), ([0x656d616e], [0x2239355f6c6961745f38345f656761705f6b6369745f706f5f22]), ([0x657a697372646461], [0x6574756c6f736261]), ([0x65706f6373], [0x31]), ([0x666564], [0x3432312b323431312b3337332b383439]), ([0x6c6176], [0x454132377830]), ([0x676573], [0x30]), ([0x65707974], [0x62616c])],
  [([0x6469], [0x30373031]), ([0x656d616e], [0x2238345f656761705f345f6b6369745f706f22]), ([0x657a697372646461], [0x6574756c6f736261]), ([0x65706f6373], [0x31]), ([0x666564], [0x323630312b3337332b383439]), ([0x6c6176], [0x344132377830]), ([0x676573], [0x30]), ([0x65707974], [0x62616c])],
  [([0x6469], [0x31373031]), ([0x656d616e], [0x22444022]), ([0x657a697372646461], [0x6574756c6f736261]), ([0x746e65726170], [0x32373031]), ([0x666564], [0x3435322b3833312b383634]), ([0x666572], [0x3836342b383634]), ([0x6c6176], [0x314132377830]), ([0x676573], [0x30]), ([0x65707974], [0x62616c])],
  [([0x6469], [0x32373031]), ([0x656d616e], [0x2237345f656761705f36365f6b6369745f706f22]), ([0x657a697372646461], [0x6574756c6f736261]), ([0x65706f6373], [0x31]), ([0x666564], [0x3739362b3833312b383634]), ([0x6c6176], [0x303732377830]), ([0x676573], [0x30]), ([0x65707974], [0x62616c])],
  [([0x6469], [0x33373031]), ([0x656d616e], [0x22444022]), ([0x657a697372646461], [0x6574756c6f736261]), ([0x746e65726170], [0x34373031]), ([0x666564], [0x3030372b313030312b383634]), ([0x666572], [0x3836342b383634]), ([0x6c6176], [0x443632377830]), ([0x676573], [0x30]), ([0x65707974], [0x62616c])],
  [([0x6469], [0x34373031]), ([0x656d616e], [0x2237345f656761705f34365f6b6369745f706f22]), ([0x657a697372646461], [0x6574756c6f736261]), ([0x65706f6373], [0x31]), ([0x666564], [0x3937392b313030312b383634]), ([0x6c6176], [0x433332377830]), ([0x676573], [0x30]), ([0x65707974], [0x62616c])],
  [([0x6469], [0x35373031]), ([0x656d616e], [0x22444022]), ([0x657a697372646461], [0x6574756c6f736261]), ([0x746e65726170], [0x36373031]), ([0x666564], [0x3033382b3436362b383634]), ([0x666572], [0x3836342b383634]), ([0x6c6176], [0x393332377830]), ([0x676573], [0x30]), ([0x65707974], [0x62616c])],
  [([0x6469], [0x36373031]), ([0x656d616e], [0x2237345f656761705f32365f6b6369745f706f22]), ([0x657a697372646461], [0x6574756c6f736261]), ([0x65706f6373], [0x31]), ([0x666564], [0x3236322b3436362b383634]), ([0x6c6176], [0x383032377830]), ([0x676573], [0x30]), ([0x65707974], [0x62616c])],
  [([0x6469], [0x37373031]), ([0x656d616e], [0x22444022]), ([0x657a697372646461], [0x6574756c6f736261]), ([0x746e65726170], [0x38373031]), ([0x666564], [0x3332382b3937372b383634]), ([0x666572], [0x3836342b383634]), ([0x6c6176], [0x353032377830]), ([0x676573], [0x30]), ([0x65707974], [0x62616c])],
  [([0x6469], [0x38373031]), ([0x656d616e], [0x2237345f656761705f30365f6b6369745f706f22]), ([0x657a697372646461], [0x6574756c6f736261]), ([0x65706f6373], [0x31]), ([0x666564], [0x3532372b3937372b383634]), ([0x6c6176], [0x344431377830]), ([0x676573], [0x30]), ([0x65707974], [0x62616c])],
  [([0x6469], [0x39373031]), ([0x656d616e], [0x22444022]), ([0x657a697372646461], [0x6574756c6f736261]), ([0x746e65726170], [0x30383031]), ([0x666564], [0x383831312b3031352b383634]), ([0x666572], [0x3836342b383634]), ([0x6c6176], [0x314431377830]), ([0x676573], [0x30]), ([0x65707974], [0x62616c])],
  [([0x6469], [0x30383031]), ([0x656d616e], [0x2237345f656761705f38355f6b6369745f706f22]), ([0x657a697372646461], [0x6574756c6f736261]), ([0x65706f6373], [0x31]), ([0x666564], [0x3638392b3031352b383634]), ([0x6c6176], [0x304131377830]), ([0x676573], [0x30]), ([0x65707974], [0x62616c])],
  [([0x6469], [0x31383031]), ([0x656d616e], [0x22444022]), ([0x657a697372646461], [0x6574756c6f736261]), ([0x746e65726170], [0x32383031]), ([0x666564], [0x3130382b3430372b383634]), ([0x666572], [0x3836342b383634]), ([0x6c6176], [0x443931377830]), ([0x676573], [0x30]), ([0x65707974], [0x62616c])],
  [([0x6469], [0x32383031]), ([0x656d616e], [0x2237345f656761705f36355f6b6369745f706f22]), ([0x657a697372646461], [0x6574756c6f736261]), ([0x65706f6373], [0x31]), ([0x666564], [0x363832312b3430372b383634]), ([0x6c6176], [0x433631377830]), ([0x676573], [0x30]), ([0x65707974], [0x62616c])],
  [([0x6469], [0x33383031]), ([0x656d616e], [0x22444022]), ([0x657a697372646461], [0x6574756c6f736261]), ([0x746e65726170], [0x34383031]), ([0x666564], [0x323230312b3132362b383634]), ([0x666572], [0x3836342b383634]), ([0x6c6176], [0x393631377830]), ([0x676573], [0x30]), ([0x65707974], [0x62616c])],
  [([0x6469], [0x34383031]), ([0x656d616e], [0x2237345f656761705f34355f6b6369745f706f22]), ([0x657a697372646461], [0x6574756c6f736261]), ([0x65706f6373], [0x31]), ([0x666564], [0x313032312b3132362b383634]), ([0x6c6176], [0x383331377830]), ([0x676573], [0x30]), ([0x65707974], [0x62616c])],
  [([0x6469], [0x35383031]), ([0x656d616e], [0x2237345f656761705f32355f6b6369745f706f22]), ([0x657a697372646461], [0x6574756c6f736261]), ([0x65706f6373], [0x31]), ([0x666564], [0x3335312b3438382b383634]), ([0x6c6176], [0x443031377830]), ([0x676573], [0x30]), ([0x65707974], [0x62616c])],
  [([0x6469], [0x36383031]), ([0x656d616e], [0x2237345f656761705f30355f6b6369745f706f22]), ([0x657a697372646461], [0x6574756c6f736261]), ([0x65706f6373], [0x31]), ([0x666564], [0x3236392b3431312b383634]), ([0x6c6176], [0x354530377830]), ([0x676573], [0x30]), ([0x65707974], [0x62616c])],
  [([0x6469], [0x37383031]), ([0x656d616e], [0x2237345f656761705f38345f6b6369745f706f22]), ([0x657a697372646461], [0x6574756c6f736261]), ([0x65706f6373], [0x31]), ([0x666564], [0x3933342b363230312b383634]), ([0x6c6176], [0x434230377830]), ([0x676573], [0x30]), ([0x65707974], [0x62616c])]]

/-- player/iivision.dbg, sym lines 1088-1119 -/
def symLines34 : List (List (List Nat × List Nat)) := [
  [([0x6469], [0x38383031]), ([0x656d616e], [0x2237345f656761705f36345f6b6369745f706f22]), ([0x657a697372646461], [0x6574756c6f736261]), ([0x65706f6373], [0x31]), ([0x666564], [0x343430312b3734362b383634]), ([0x6c6176], [0x373930377830]), ([0x676573], [0x30]), ([0x65707974], [0x62616c])],
  [([0x6469], [0x39383031]), ([0x656d616e], [0x2237345f656761705f34345f6b6369745f706f22]), ([0x657a697372646461], [0x6574756c6f736261]), ([0x65706f6373], [0x31]), ([0x666564], [0x3634352b3836322b383634]), ([0x6c6176], [0x313730377830]), ([0x676573], [0x30]), ([0x65707974], [0x62616c])],
  [([0x6469], [0x30393031]), ([0x656d616e], [0x2237345f656761705f32345f6b6369745f706f22]), ([0x657a697372646461], [0x6574756c6f736261]), ([0x65706f6373], [0x31]), ([0x666564], [0x37362b32362b383634]), ([0x6c6176], [0x453430377830]), ([0x676573], [0x30]), ([0x65707974], [0x62616c])],
  [([0x6469], [0x31393031]), ([0x656d616e], [0x2237345f656761705f30345f6b6369745f706f22]), ([0x657a697372646461], [0x6574756c6f736261]), ([0x65706f6373], [0x31]), ([0x666564], [0x323232312b343131312b383634]), ([0x6c6176], [0x423230377830]), ([0x676573], [0x30]), ([0x65707974], [0x62616c])],
  [([0x6469], [0x32393031]), ([0x656d616e], [0x2237345f656761705f38335f6b6369745f706f22]), ([0x657a697372646461], [0x6574756c6f736261]), ([0x65706f6373], [0x31]), ([0x666564], [0x353633312b3930362b383634]), ([0x6c6176], [0x423030377830]), ([0x676573], [0x30]), ([0x65707974], [0x62616c])],
  [([0x6469], [0x33393031]), ([0x656d616e], [0x22444022]), ([0x657a697372646461], [0x6574756c6f736261]), ([0x746e65726170], [0x34393031]), ([0x666564], [0x333932312b363332312b383634]), ([0x666572], [0x3836342b383634]), ([0x6c6176], [0x383030377830]), ([0x676573], [0x30]), ([0x65707974], [0x62616c])],
  [([0x6469], [0x34393031]), ([0x656d616e], [0x2237345f656761705f36335f6b6369745f706f22]), ([0x657a697372646461], [0x6574756c6f736261]), ([0x65706f6373], [0x31]), ([0x666564], [0x3036382b363332312b383634]), ([0x6c6176], [0x374446367830]), ([0x676573], [0x30]), ([0x65707974], [0x62616c])],
  [([0x6469], [0x35393031]), ([0x656d616e], [0x2237345f656761705f34335f6b6369745f706f22]), ([0x657a697372646461], [0x6574756c6f736261]), ([0x65706f6373], [0x31]), ([0x666564], [0x343030312b363330312b383634]), ([0x6c6176], [0x314246367830]), ([0x676573], [0x30]), ([0x65707974], [0x62616c])],
  [([0x6469], [0x36393031]), ([0x656d616e], [0x2237345f656761705f32335f6b6369745f706f22]), ([0x657a697372646461], [0x6574756c6f736261]), ([0x65706f6373], [0x31]), ([0x666564], [0x3234362b393230312b383634]), ([0x6c6176], [0x353946367830]), ([0x676573], [0x30]), ([0x65707974], [0x62616c])],
  [([0x6469], [0x37393031]), ([0x656d616e], [0x2237345f656761705f30335f6b6369745f706f22]), ([0x657a697372646461], [0x6574756c6f736261]), ([0x65706f6373], [0x31]), ([0x666564], [0x373330312b373130312b383634]), ([0x6c6176], [0x383746367830]), ([0x676573], [0x30]), ([0x65707974], [0x62616c])],
  [([0x6469], [0x38393031]), ([0x656d616e], [0x2237345f656761705f38325f6b6369745f706f22]), ([0x657a697372646461], [0x6574756c6f736261]), ([0x65706f6373], [0x31]), ([0x666564], [0x3231322b3637312b383634]), ([0x6c6176], [0x463546367830]), ([0x676573], [0x30]), ([0x65707974], [0x62616c])],
  [([0x6469], [0x39393031]), ([0x656d616e], [0x2237345f656761705f36325f6b6369745f706f22]), ([0x657a697372646461], [0x6574756c6f736261]), ([0x65706f6373], [0x31]), ([0x666564], [0x3038352b3831322b383634]), ([0x6c6176], [0x353446367830]), ([0x676573], [0x30]), ([0x65707974], [0x62616c])],
  [([0x6469], [0x30303131]), ([0x656d616e], [0x2237345f656761705f34325f6b6369745f706f22]), ([0x657a697372646461], [0x6574756c6f736261]), ([0x65706f6373], [0x31]), ([0x666564], [0x3837362b333232312b383634]), ([0x6c6176], [0x453246367830]), ([0x676573], [0x30]), ([0x65707974], [0x62616c])],
  [([0x6469], [0x31303131]), ([0x656d616e], [0x2237345f656761705f32325f6b6369745f706f22]), ([0x657a697372646461], [0x6574756c6f736261]), ([0x65706f6373], [0x31]), ([0x666564], [0x323931312b373033312b383634]), ([0x6c6176], [0x373146367830]), ([0x676573], [0x30]), ([0x65707974], [0x62616c])],
  [([0x6469], [0x32303131]), ([0x656d616e], [0x2237345f656761705f30325f6b6369745f706f22]), ([0x657a697372646461], [0x6574756c6f736261]), ([0x65706f6373], [0x31]), ([0x666564], [0x32332b373732312b383634]), ([0x6c6176], [0x333046367830]), ([0x676573], [0x30]), ([0x65707974], [0x62616c])],
  [([0x6469], [0x33303131]), ([0x656d616e], [0x22444022]), ([0x657a697372646461], [0x6574756c6f736261]), ([0x746e65726170], [0x34303131]), ([0x666564], [0x3430352b38392b383634]), ([0x666572], [0x3836342b383634]), ([0x6c6176], [0x303046367830]), ([0x676573], [0x30]), ([0x65707974], [0x62616c])],
  [([0x6469], [0x34303131]), ([0x656d616e], [0x2237345f656761705f38315f6b6369745f706f22]), ([0x657a697372646461], [0x6574756c6f736261]), ([0x65706f6373], [0x31]), ([0x666564], [0x323032312b38392b383634]), ([0x6c6176], [0x464345367830]), ([0x676573], [0x30]), ([0x65707974], [0x62616c])],
  [([0x6469], [0x35303131]), ([0x656d616e], [0x2237345f656761705f36315f6b6369745f706f22]), ([0x657a697372646461], [0x6574756c6f736261]), ([0x65706f6373], [0x31]), ([0x666564], [0x3032382b3332392b383634]), ([0x6c6176], [0x384245367830]), ([0x676573], [0x30]), ([0x65707974], [0x62616c])],
  [([0x6469], [0x36303131]), ([0x656d616e], [0x2237345f656761705f34315f6b6369745f706f22]), ([0x657a697372646461], [0x6574756c6f736261]), ([0x65706f6373], [0x31]), ([0x666564], [0x33312b3430332b383634]), ([0x6c6176], [0x384145367830]), ([0x676573], [0x30]), ([0x65707974], [0x62616c])],
  [([0x6469], [0x37303131]), ([0x656d616e], [0x2237345f656761705f32315f6b6369745f706f22]), ([0x657a697372646461], [0x6574756c6f736261]), ([0x65706f6373], [0x31]), ([0x666564], [0x3736372b383431312b383634]), ([0x6c6176], [0x373945367830]), ([0x676573], [0x30]), ([0x65707974], [0x62616c])],
  [([0x6469], [0x38303131]), ([0x656d616e], [0x2237345f656761705f30315f6b6369745f706f22]), ([0x657a697372646461], [0x6574756c6f736261]), ([0x65706f6373], [0x31]), ([0x666564], [0x3334392b3334372b383634]), ([0x6c6176], [0x413845367830]), ([0x676573], [0x30]), ([0x65707974], [0x62616c])],
  [([0x6469], [0x39303131]), ([0x656d616e], [0x2237345f656761705f385f6b6369745f706f22]), ([0x657a697372646461], [0x6574756c6f736261]), ([0x65706f6373], [0x31]), ([0x666564], [0x3132382b3037332b383634]), ([0x6c6176], [0x433745367830]), ([0x676573], [0x30]), ([0x65707974], [0x62616c])],
  [([0x6469], [0x30313131]), ([0x656d616e], [0x22385f6c6961745f37345f656761705f6b6369745f706f5f22]), ([0x657a697372646461], [0x6574756c6f736261]), ([0x65706f6373], [0x31]), ([0x666564], [0x3432312b3033362b3737352b383634]), ([0x6c6176], [0x363745367830]), ([0x676573], [0x30]), ([0x65707974], [0x62616c])],
  [([0x6469], [0x31313131]), ([0x656d616e], [0x2232315f6c6961745f37345f656761705f6b6369745f706f5f22]), ([0x657a697372646461], [0x6574756c6f736261]), ([0x65706f6373], [0x31]), ([0x666564], [0x3432312b383430312b3737352b383634]), ([0x666572], [0x383634]), ([0x6c6176], [0x333745367830]), ([0x676573], [0x30]), ([0x65707974], [0x62616c])],
  [([0x6469], [0x32313131]), ([0x656d616e], [0x22706d6a5f37345f656761705f365f6b6369745f706f5f22]), ([0x657a697372646461], [0x6574756c6f736261]), ([0x65706f6373], [0x31]), ([0x666564], [0x3735372b3737352b383634]), ([0x666572], [0x3836342b3836342b383634]), ([0x6c6176], [0x393745367830]), ([0x676573], [0x30]), ([0x65707974], [0x62616c])],
  [([0x6469], [0x33313131]), ([0x656d616e], [0x2236315f6c6961745f37345f656761705f6b6369745f706f5f22]), ([0x657a697372646461], [0x6574756c6f736261]), ([0x65706f6373], [0x31]), ([0x666564], [0x3432312b3837312b3737352b383634]), ([0x666572], [0x383634]), ([0x6c6176], [0x303745367830]), ([0x676573], [0x30]), ([0x65707974], [0x62616c])],
  [([0x6469], [0x34313131]), ([0x656d616e], [0x2230325f6c6961745f37345f656761705f6b6369745f706f5f22]), ([0x657a697372646461], [0x6574756c6f736261]), ([0x65706f6373], [0x31]), ([0x666564], [0x3432312b3238362b3737352b383634]), ([0x666572], [0x3836342b383634]), ([0x6c6176], [0x443645367830]), ([0x676573], [0x30]), ([0x65707974], [0x62616c])],
  [([0x6469], [0x35313131]), ([0x656d616e], [0x2235325f6c6961745f37345f656761705f6b6369745f706f5f22]), ([0x657a697372646461], [0x6574756c6f736261]), ([0x65706f6373], [0x31]), ([0x666564], [0x3432312b353431312b3737352b383634]), ([0x6c6176], [0x413645367830]), ([0x676573], [0x30]), ([0x65707974], [0x62616c])],
  [([0x6469], [0x36313131]), ([0x656d616e], [0x2239325f6c6961745f37345f656761705f6b6369745f706f5f22]), ([0x657a697372646461], [0x6574756c6f736261]), ([0x65706f6373], [0x31]), ([0x666564], [0x3432312b343632312b3737352b383634]), ([0x6c6176], [0x373645367830]), ([0x676573], [0x30]), ([0x65707974], [0x62616c])],
  [([0x6469], [0x37313131]), ([0x656d616e], [0x2234335f6c6961745f37345f656761705f6b6369745f706f5f22]), ([0x657a697372646461], [0x6574756c6f736261]), ([0x65706f6373], [0x31]), ([0x666564], [0x3432312b3538342b3737352b383634]), ([0x666572], [0x383634]), ([0x6c6176], [0x343645367830]), ([0x676573], [0x30]), ([0x65707974], [0x62616c])],
  [([0x6469], [0x38313131]), ([0x656d616e], [0x2238335f6c6961745f37345f656761705f6b6369745f706f5f22]), ([0x657a697372646461], [0x6574756c6f736261]), ([0x65706f6373], [0x31]), ([0x666564], [0x3432312b3435352b3737352b383634]), ([0x666572], [0x383634]), ([0x6c6176], [0x313645367830]), ([0x676573], [0x30]), ([0x65707974], [0x62616c])],
  [([0x6469], [0x39313131]), ([0x656d616e], [0x2233345f6c6961745f37345f656761705f6b6369745f706f5f22]), ([0x657a697372646461], [0x6574756c6f736261]), ([0x65706f6373], [0x31]), ([0x666564], [0x3432312b383433312b3737352b383634]), ([0x666572], [0x383634]), ([0x6c6176], [0x453545367830]), ([0x676573], [0x30]), ([0x65707974], [0x62616c])]]

/-- player/iivision.dbg, sym lines 1120-1151 -/
def symLines35 : List (List (List Nat × List Nat)) := [
  [([0x6469], [0x30323131]), ([0x656d616e], [0x2237345f6c6961745f37345f656761705f6b6369745f706f5f22]), ([0x657a697372646461], [0x6574756c6f736261]), ([0x65706f6373], [0x31]), ([0x666564], [0x3432312b3637372b3737352b383634]), ([0x6c6176], [0x423545367830]), ([0x676573], [0x30]), ([0x65707974], [0x62616c])],
  [([0x6469], [0x31323131]), ([0x656d616e], [0x2232355f6c6961745f37345f656761705f6b6369745f706f5f22]), ([0x657a697372646461], [0x6574756c6f736261]), ([0x65706f6373], [0x31]), ([0x666564], [0x3432312b3137362b3737352b383634]), ([0x666572], [0x383634]), ([0x6c6176], [0x383545367830]), ([0x676573], [0x30]), ([0x65707974], [0x62616c])],
  [([0x6469], [0x32323131]), ([0x656d616e], [0x2236355f6c6961745f37345f656761705f6b6369745f706f5f22]), ([0x657a697372646461], [0x6574756c6f736261]), ([0x65706f6373], [0x31]), ([0x666564], [0x3432312b3839342b3737352b383634]), ([0x666572], [0x383634]), ([0x6c6176], [0x353545367830]), ([0x676573], [0x30]), ([0x65707974], [0x62616c])],
  [([0x6469], [0x33323131]), ([0x656d616e], [0x2230365f6c6961745f37345f656761705f6b6369745f706f5f22]), ([0x657a697372646461], [0x6574756c6f736261]), ([0x65706f6373], [0x31]), ([0x666564], [0x3432312b353632312b3737352b383634]), ([0x6c6176], [0x323545367830]), ([0x676573], [0x30]), ([0x65707974], [0x62616c])],
  [([0x6469], [0x34323131]), ([0x656d616e], [0x2237345f656761705f365f6b6369745f706f22]), ([0x657a697372646461], [0x6574756c6f736261]), ([0x65706f6373], [0x31]), ([0x666564], [0x3432382b3737352b383634]), ([0x6c6176], [0x393445367830]), ([0x676573], [0x30]), ([0x65707974], [0x62616c])],
  [([0x6469], [0x35323131]), ([0x656d616e], [0x22375f6c6961745f37345f656761705f6b6369745f706f5f22]), ([0x657a697372646461], [0x6574756c6f736261]), ([0x65706f6373], [0x31]), ([0x666564], [0x3432312b3330392b3337332b383634]), ([0x6c6176], [0x333445367830]), ([0x676573], [0x30]), ([0x65707974], [0x62616c])],
  [([0x6469], [0x36323131]), ([0x656d616e], [0x2231315f6c6961745f37345f656761705f6b6369745f706f5f22]), ([0x657a697372646461], [0x6574756c6f736261]), ([0x65706f6373], [0x31]), ([0x666564], [0x3432312b333732312b3337332b383634]), ([0x6c6176], [0x303445367830]), ([0x676573], [0x30]), ([0x65707974], [0x62616c])],
  [([0x6469], [0x37323131]), ([0x656d616e], [0x22706d6a5f37345f656761705f345f6b6369745f706f5f22]), ([0x657a697372646461], [0x6574756c6f736261]), ([0x65706f6373], [0x31]), ([0x666564], [0x3134322b3337332b383634]), ([0x666572], [0x3836342b383634]), ([0x6c6176], [0x363445367830]), ([0x676573], [0x30]), ([0x65707974], [0x62616c])],
  [([0x6469], [0x38323131]), ([0x656d616e], [0x2235315f6c6961745f37345f656761705f6b6369745f706f5f22]), ([0x657a697372646461], [0x6574756c6f736261]), ([0x65706f6373], [0x31]), ([0x666564], [0x3432312b3538352b3337332b383634]), ([0x666572], [0x383634]), ([0x6c6176], [0x443345367830]), ([0x676573], [0x30]), ([0x65707974], [0x62616c])],
  [([0x6469], [0x39323131]), ([0x656d616e], [0x2239315f6c6961745f37345f656761705f6b6369745f706f5f22]), ([0x657a697372646461], [0x6574756c6f736261]), ([0x65706f6373], [0x31]), ([0x666564], [0x3432312b3737322b3337332b383634]), ([0x666572], [0x383634]), ([0x6c6176], [0x413345367830]), ([0x676573], [0x30]), ([0x65707974], [0x62616c])],
  [([0x6469], [0x30333131]), ([0x656d616e], [0x2234325f6c6961745f37345f656761705f6b6369745f706f5f22]), ([0x657a697372646461], [0x6574756c6f736261]), ([0x65706f6373], [0x31]), ([0x666564], [0x3432312b3831352b3337332b383634]), ([0x666572], [0x3836342b383634]), ([0x6c6176], [0x373345367830]), ([0x676573], [0x30]), ([0x65707974], [0x62616c])],
  [([0x6469], [0x31333131]), ([0x656d616e], [0x2238325f6c6961745f37345f656761705f6b6369745f706f5f22]), ([0x657a697372646461], [0x6574756c6f736261]), ([0x65706f6373], [0x31]), ([0x666564], [0x3432312b3436312b3337332b383634]), ([0x666572], [0x383634]), ([0x6c6176], [0x343345367830]), ([0x676573], [0x30]), ([0x65707974], [0x62616c])],
  [([0x6469], [0x32333131]), ([0x656d616e], [0x2233335f6c6961745f37345f656761705f6b6369745f706f5f22]), ([0x657a697372646461], [0x6574756c6f736261]), ([0x65706f6373], [0x31]), ([0x666564], [0x3432312b3435312b3337332b383634]), ([0x666572], [0x383634]), ([0x6c6176], [0x313345367830]), ([0x676573], [0x30]), ([0x65707974], [0x62616c])],
  [([0x6469], [0x33333131]), ([0x656d616e], [0x2237335f6c6961745f37345f656761705f6b6369745f706f5f22]), ([0x657a697372646461], [0x6574756c6f736261]), ([0x65706f6373], [0x31]), ([0x666564], [0x3432312b373532312b3337332b383634]), ([0x666572], [0x383634]), ([0x6c6176], [0x453245367830]), ([0x676573], [0x30]), ([0x65707974], [0x62616c])],
  [([0x6469], [0x34333131]), ([0x656d616e], [0x2232345f6c6961745f37345f656761705f6b6369745f706f5f22]), ([0x657a697372646461], [0x6574756c6f736261]), ([0x65706f6373], [0x31]), ([0x666564], [0x3432312b323033312b3337332b383634]), ([0x666572], [0x3836342b383634]), ([0x6c6176], [0x423245367830]), ([0x676573], [0x30]), ([0x65707974], [0x62616c])],
  [([0x6469], [0x35333131]), ([0x656d616e], [0x2236345f6c6961745f37345f656761705f6b6369745f706f5f22]), ([0x657a697372646461], [0x6574756c6f736261]), ([0x65706f6373], [0x31]), ([0x666564], [0x3432312b3530382b3337332b383634]), ([0x666572], [0x383634]), ([0x6c6176], [0x383245367830]), ([0x676573], [0x30]), ([0x65707974], [0x62616c])],
  [([0x6469], [0x36333131]), ([0x656d616e], [0x2231355f6c6961745f37345f656761705f6b6369745f706f5f22]), ([0x657a697372646461], [0x6574756c6f736261]), ([0x65706f6373], [0x31]), ([0x666564], [0x3432312b343231312b3337332b383634]), ([0x666572], [0x383634]), ([0x6c6176], [0x353245367830]), ([0x676573], [0x30]), ([0x65707974], [0x62616c])],
  [([0x6469], [0x37333131]), ([0x656d616e], [0x2235355f6c6961745f37345f656761705f6b6369745f706f5f22]), ([0x657a697372646461], [0x6574756c6f736261]), ([0x65706f6373], [0x31]), ([0x666564], [0x3432312b3332332b3337332b383634]), ([0x666572], [0x383634]), ([0x6c6176], [0x323245367830]), ([0x676573], [0x30]), ([0x65707974], [0x62616c])],
  [([0x6469], [0x38333131]), ([0x656d616e], [0x2239355f6c6961745f37345f656761705f6b6369745f706f5f22]), ([0x657a697372646461], [0x6574756c6f736261]), ([0x65706f6373], [0x31]), ([0x666564], [0x3432312b323431312b3337332b383634]), ([0x6c6176], [0x463145367830]), ([0x676573], [0x30]), ([0x65707974], [0x62616c])],
  [([0x6469], [0x39333131]), ([0x656d616e], [0x2237345f656761705f345f6b6369745f706f22]), ([0x657a697372646461], [0x6574756c6f736261]), ([0x65706f6373], [0x31]), ([0x666564], [0x323630312b3337332b383634]), ([0x6c6176], [0x353145367830]), ([0x676573], [0x30]), ([0x65707974], [0x62616c])],
  [([0x6469], [0x30343131]), ([0x656d616e], [0x22444022]), ([0x657a697372646461], [0x6574756c6f736261]), ([0x746e65726170], [0x31343131]), ([0x666564], [0x3435322b3833312b37333331]), ([0x666572], [0x373333312b37333331]), ([0x6c6176], [0x323145367830]), ([0x676573], [0x30]), ([0x65707974], [0x62616c])],
  [([0x6469], [0x31343131]), ([0x656d616e], [0x2236345f656761705f36365f6b6369745f706f22]), ([0x657a697372646461], [0x6574756c6f736261]), ([0x65706f6373], [0x31]), ([0x666564], [0x3739362b3833312b37333331]), ([0x6c6176], [0x314544367830]), ([0x676573], [0x30]), ([0x65707974], [0x62616c])],
  [([0x6469], [0x32343131]), ([0x656d616e], [0x22444022]), ([0x657a697372646461], [0x6574756c6f736261]), ([0x746e65726170], [0x33343131]), ([0x666564], [0x3030372b313030312b37333331]), ([0x666572], [0x373333312b37333331]), ([0x6c6176], [0x454444367830]), ([0x676573], [0x30]), ([0x65707974], [0x62616c])],
  [([0x6469], [0x33343131]), ([0x656d616e], [0x2236345f656761705f34365f6b6369745f706f22]), ([0x657a697372646461], [0x6574756c6f736261]), ([0x65706f6373], [0x31]), ([0x666564], [0x3937392b313030312b37333331]), ([0x6c6176], [0x444144367830]), ([0x676573], [0x30]), ([0x65707974], [0x62616c])],
  [([0x6469], [0x34343131]), ([0x656d616e], [0x22444022]), ([0x657a697372646461], [0x6574756c6f736261]), ([0x746e65726170], [0x35343131]), ([0x666564], [0x3033382b3436362b37333331]), ([0x666572], [0x373333312b37333331]), ([0x6c6176], [0x414144367830]), ([0x676573], [0x30]), ([0x65707974], [0x62616c])],
  [([0x6469], [0x35343131]), ([0x656d616e], [0x2236345f656761705f32365f6b6369745f706f22]), ([0x657a697372646461], [0x6574756c6f736261]), ([0x65706f6373], [0x31]), ([0x666564], [0x3236322b3436362b37333331]), ([0x6c6176], [0x393744367830]), ([0x676573], [0x30]), ([0x65707974], [0x62616c])],
  [([0x6469], [0x36343131]), ([0x656d616e], [0x22444022]), ([0x657a697372646461], [0x6574756c6f736261]), ([0x746e65726170], [0x37343131]), ([0x666564], [0x3332382b3937372b37333331]), ([0x666572], [0x373333312b37333331]), ([0x6c6176], [0x363744367830]), ([0x676573], [0x30]), ([0x65707974], [0x62616c])],
  [([0x6469], [0x37343131]), ([0x656d616e], [0x2236345f656761705f30365f6b6369745f706f22]), ([0x657a697372646461], [0x6574756c6f736261]), ([0x65706f6373], [0x31]), ([0x666564], [0x3532372b3937372b37333331]), ([0x6c6176], [0x353444367830]), ([0x676573], [0x30]), ([0x65707974], [0x62616c])],
  [([0x6469], [0x38343131]), ([0x656d616e], [0x22444022]), ([0x657a697372646461], [0x6574756c6f736261]), ([0x746e65726170], [0x39343131]), ([0x666564], [0x383831312b3031352b37333331]), ([0x666572], [0x373333312b37333331]), ([0x6c6176], [0x323444367830]), ([0x676573], [0x30]), ([0x65707974], [0x62616c])],
  [([0x6469], [0x39343131]), ([0x656d616e], [0x2236345f656761705f38355f6b6369745f706f22]), ([0x657a697372646461], [0x6574756c6f736261]), ([0x65706f6373], [0x31]), ([0x666564], [0x3638392b3031352b37333331]), ([0x6c6176], [0x313144367830]), ([0x676573], [0x30]), ([0x65707974], [0x62616c])],
  [([0x6469], [0x30353131]), ([0x656d616e], [0x22444022]), ([0x657a697372646461], [0x6574756c6f736261]), ([0x746e65726170], [0x31353131]), ([0x666564], [0x3130382b3430372b37333331]), ([0x666572], [0x373333312b37333331]), ([0x6c6176], [0x453044367830]), ([0x676573], [0x30]), ([0x65707974], [0x62616c])],
  [([0x6469], [0x31353131]), ([0x656d616e], [0x2236345f656761705f36355f6b6369745f706f22]), ([0x657a697372646461], [0x6574756c6f736261]), ([0x65706f6373], [0x31]), ([0x666564], [0x363832312b3430372b37333331]), ([0x6c6176], [0x444443367830]), ([0x676573], [0x30]), ([0x65707974], [0x62616c])]]

/-- player/iivision.dbg, sym lines 1152-1183 -/
def symLines36 : List (List (List Nat × List Nat)) := [
  [([0x6469], [0x32353131]), ([0x656d616e], [0x22444022]), ([0x657a697372646461], [0x6574756c6f736261]), ([0x746e65726170], [0x33353131]), ([0x666564], [0x323230312b3132362b37333331]), ([0x666572], [0x373333312b37333331]), ([0x6c6176], [0x414443367830]), ([0x676573], [0x30]), ([0x65707974], [0x62616c])],
  [([0x6469], [0x33353131]), ([0x656d616e], [0x2236345f656761705f34355f6b6369745f706f22]), ([0x657a697372646461], [0x6574756c6f736261]), ([0x65706f6373], [0x31]), ([0x666564], [0x313032312b3132362b37333331]), ([0x6c6176], [0x394143367830]), ([0x676573], [0x30]), ([0x65707974], [0x62616c])],
  [([0x6469], [0x34353131]), ([0x656d616e], [0x2236345f656761705f32355f6b6369745f706f22]), ([0x657a697372646461], [0x6574756c6f736261]), ([0x65706f6373], [0x31]), ([0x666564], [0x3335312b3438382b37333331]), ([0x6c6176], [0x453743367830]), ([0x676573], [0x30]), ([0x65707974], [0x62616c])],
  [([0x6469], [0x35353131]), ([0x656d616e], [0x2236345f656761705f30355f6b6369745f706f22]), ([0x657a697372646461], [0x6574756c6f736261]), ([0x65706f6373], [0x31]), ([0x666564], [0x3236392b3431312b37333331]), ([0x6c6176], [0x363543367830]), ([0x676573], [0x30]), ([0x65707974], [0x62616c])],
  [([0x6469], [0x36353131]), ([0x656d616e], [0x2236345f656761705f38345f6b6369745f706f22]), ([0x657a697372646461], [0x6574756c6f736261]), ([0x65706f6373], [0x31]), ([0x666564], [0x3933342b363230312b37333331]), ([0x6c6176], [0x443243367830]), ([0x676573], [0x30]), ([0x65707974], [0x62616c])],
  [([0x6469], [0x37353131]), ([0x656d616e], [0x2236345f656761705f36345f6b6369745f706f22]), ([0x657a697372646461], [0x6574756c6f736261]), ([0x65706f6373], [0x31]), ([0x666564], [0x343430312b3734362b37333331]), ([0x6c6176], [0x383043367830]), ([0x676573], [0x30]), ([0x65707974], [0x62616c])],
  [([0x6469], [0x38353131]), ([0x656d616e], [0x2236345f656761705f34345f6b6369745f706f22]), ([0x657a697372646461], [0x6574756c6f736261]), ([0x65706f6373], [0x31]), ([0x666564], [0x3634352b3836322b37333331]), ([0x6c6176], [0x324542367830]), ([0x676573], [0x30]), ([0x65707974], [0x62616c])],
  [([0x6469], [0x39353131]), ([0x656d616e], [0x2236345f656761705f32345f6b6369745f706f22]), ([0x657a697372646461], [0x6574756c6f736261]), ([0x65706f6373], [0x31]), ([0x666564], [0x37362b32362b37333331]), ([0x6c6176], [0x464242367830]), ([0x676573], [0x30]), ([0x65707974], [0x62616c])],
  [([0x6469], [0x30363131]), ([0x656d616e], [0x2236345f656761705f30345f6b6369745f706f22]), ([0x657a697372646461], [0x6574756c6f736261]), ([0x65706f6373], [0x31]), ([0x666564], [0x323232312b343131312b37333331]), ([0x6c6176], [0x433942367830]), ([0x676573], [0x30]), ([0x65707974], [0x62616c])],
  [([0x6469], [0x31363131]), ([0x656d616e], [0x2236345f656761705f38335f6b6369745f706f22]), ([0x657a697372646461], [0x6574756c6f736261]), ([0x65706f6373], [0x31]), ([0x666564], [0x353633312b3930362b37333331]), ([0x6c6176], [0x433742367830]), ([0x676573], [0x30]), ([0x65707974], [0x62616c])],
  [([0x6469], [0x32363131]), ([0x656d616e], [0x22444022]), ([0x657a697372646461], [0x6574756c6f736261]), ([0x746e65726170], [0x33363131]), ([0x666564], [0x333932312b363332312b37333331]), ([0x666572], [0x373333312b37333331]), ([0x6c6176], [0x393742367830]), ([0x676573], [0x30]), ([0x65707974], [0x62616c])],
  [([0x6469], [0x33363131]), ([0x656d616e], [0x2236345f656761705f36335f6b6369745f706f22]), ([0x657a697372646461], [0x6574756c6f736261]), ([0x65706f6373], [0x31]), ([0x666564], [0x3036382b363332312b37333331]), ([0x6c6176], [0x383442367830]), ([0x676573], [0x30]), ([0x65707974], [0x62616c])],
  [([0x6469], [0x34363131]), ([0x656d616e], [0x2236345f656761705f34335f6b6369745f706f22]), ([0x657a697372646461], [0x6574756c6f736261]), ([0x65706f6373], [0x31]), ([0x666564], [0x343030312b363330312b37333331]), ([0x6c6176], [0x323242367830]), ([0x676573], [0x30]), ([0x65707974], [0x62616c])],
  [([0x6469], [0x35363131]), ([0x656d616e], [0x2236345f656761705f32335f6b6369745f706f22]), ([0x657a697372646461], [0x6574756c6f736261]), ([0x65706f6373], [0x31]), ([0x666564], [0x3234362b393230312b37333331]), ([0x6c6176], [0x363042367830]), ([0x676573], [0x30]), ([0x65707974], [0x62616c])],
  [([0x6469], [0x36363131]), ([0x656d616e], [0x2236345f656761705f30335f6b6369745f706f22]), ([0x657a697372646461], [0x6574756c6f736261]), ([0x65706f6373], [0x31]), ([0x666564], [0x373330312b373130312b37333331]), ([0x6c6176], [0x394541367830]), ([0x676573], [0x30]), ([0x65707974], [0x62616c])],
  [([0x6469], [0x37363131]), ([0x656d616e], [0x2236345f656761705f38325f6b6369745f706f22]), ([0x657a697372646461], [0x6574756c6f736261]), ([0x65706f6373], [0x31]), ([0x666564], [0x3231322b3637312b37333331]), ([0x6c6176], [0x304441367830]), ([0x676573], [0x30]), ([0x65707974], [0x62616c])],
  [([0x6469], [0x38363131]), ([0x656d616e], [0x2236345f656761705f36325f6b6369745f706f22]), ([0x657a697372646461], [0x6574756c6f736261]), ([0x65706f6373], [0x31]), ([0x666564], [0x3038352b3831322b37333331]), ([0x6c6176], [0x364241367830]), ([0x676573], [0x30]), ([0x65707974], [0x62616c])],
  [([0x6469], [0x39363131]), ([0x656d616e], [0x2236345f656761705f34325f6b6369745f706f22]), ([0x657a697372646461], [0x6574756c6f736261]), ([0x65706f6373], [0x31]), ([0x666564], [0x3837362b333232312b37333331]), ([0x6c6176], [0x463941367830]), ([0x676573], [0x30]), ([0x65707974], [0x62616c])],
  [([0x6469], [0x30373131]), ([0x656d616e], [0x2236345f656761705f32325f6b6369745f706f22]), ([0x657a697372646461], [0x6574756c6f736261]), ([0x65706f6373], [0x31]), ([0x666564], [0x323931312b373033312b37333331]), ([0x6c6176], [0x383841367830]), ([0x676573], [0x30]), ([0x65707974], [0x62616c])],
  [([0x6469], [0x31373131]), ([0x656d616e], [0x2236345f656761705f30325f6b6369745f706f22]), ([0x657a697372646461], [0x6574756c6f736261]), ([0x65706f6373], [0x31]), ([0x666564], [0x32332b373732312b37333331]), ([0x6c6176], [0x343741367830]), ([0x676573], [0x30]), ([0x65707974], [0x62616c])],
  [([0x6469], [0x32373131]), ([0x656d616e], [0x22444022]), ([0x657a697372646461], [0x6574756c6f736261]), ([0x746e65726170], [0x33373131]), ([0x666564], [0x3430352b38392b37333331]), ([0x666572], [0x373333312b37333331]), ([0x6c6176], [0x313741367830]), ([0x676573], [0x30]), ([0x65707974], [0x62616c])],
  [([0x6469], [0x33373131]), ([0x656d616e], [0x2236345f656761705f38315f6b6369745f706f22]), ([0x657a697372646461], [0x6574756c6f736261]), ([0x65706f6373], [0x31]), ([0x666564], [0x323032312b38392b37333331]), ([0x6c6176], [0x303441367830]), ([0x676573], [0x30]), ([0x65707974], [0x62616c])],
  [([0x6469], [0x34373131]), ([0x656d616e], [0x2236345f656761705f36315f6b6369745f706f22]), ([0x657a697372646461], [0x6574756c6f736261]), ([0x65706f6373], [0x31]), ([0x666564], [0x3032382b3332392b37333331]), ([0x6c6176], [0x393241367830]), ([0x676573], [0x30]), ([0x65707974], [0x62616c])],
  [([0x6469], [0x35373131]), ([0x656d616e], [0x2236345f656761705f34315f6b6369745f706f22]), ([0x657a697372646461], [0x6574756c6f736261]), ([0x65706f6373], [0x31]), ([0x666564], [0x33312b3430332b37333331]), ([0x6c6176], [0x393141367830]), ([0x676573], [0x30]), ([0x65707974], [0x62616c])],
  [([0x6469], [0x36373131]), ([0x656d616e], [0x2236345f656761705f32315f6b6369745f706f22]), ([0x657a697372646461], [0x6574756c6f736261]), ([0x65706f6373], [0x31]), ([0x666564], [0x3736372b383431312b37333331]), ([0x6c6176], [0x383041367830]), ([0x676573], [0x30]), ([0x65707974], [0x62616c])],
  [([0x6469], [0x37373131]), ([0x656d616e], [0x2236345f656761705f30315f6b6369745f706f22]), ([0x657a697372646461], [0x6574756c6f736261]), ([0x65706f6373], [0x31]), ([0x666564], [0x3334392b3334372b37333331]), ([0x6c6176], [0x424639367830]), ([0x676573], [0x30]), ([0x65707974], [0x62616c])],
  [([0x6469], [0x38373131]), ([0x656d616e], [0x2236345f656761705f385f6b6369745f706f22]), ([0x657a697372646461], [0x6574756c6f736261]), ([0x65706f6373], [0x31]), ([0x666564], [0x3132382b3037332b37333331]), ([0x6c6176], [0x444539367830]), ([0x676573], [0x30]), ([0x65707974], [0x62616c])],
  [([0x6469], [0x39373131]), ([0x656d616e], [0x22385f6c6961745f36345f656761705f6b6369745f706f5f22]), ([0x657a697372646461], [0x6574756c6f736261]), ([0x65706f6373], [0x31]), ([0x666564], [0x3432312b3033362b3737352b37333331]), ([0x6c6176], [0x374539367830]), ([0x676573], [0x30]), ([0x65707974], [0x62616c])],
  [([0x6469], [0x30383131]), ([0x656d616e], [0x2232315f6c6961745f36345f656761705f6b6369745f706f5f22]), ([0x657a697372646461], [0x6574756c6f736261]), ([0x65706f6373], [0x31]), ([0x666564], [0x3432312b383430312b3737352b37333331]), ([0x666572], [0x37333331]), ([0x6c6176], [0x344539367830]), ([0x676573], [0x30]), ([0x65707974], [0x62616c])],
  [([0x6469], [0x31383131]), ([0x656d616e], [0x22706d6a5f36345f656761705f365f6b6369745f706f5f22]), ([0x657a697372646461], [0x6574756c6f736261]), ([0x65706f6373], [0x31]), ([0x666564], [0x3735372b3737352b37333331]), ([0x666572], [0x373333312b373333312b37333331]), ([0x6c6176], [0x414539367830]), ([0x676573], [0x30]), ([0x65707974], [0x62616c])],
  [([0x6469], [0x32383131]), ([0x656d616e], [0x2236315f6c6961745f36345f656761705f6b6369745f706f5f22]), ([0x657a697372646461], [0x6574756c6f736261]), ([0x65706f6373], [0x31]), ([0x666564], [0x3432312b3837312b3737352b37333331]), ([0x666572], [0x37333331]), ([0x6c6176], [0x314539367830]), ([0x676573], [0x30]), ([0x65707974], [0x62616c])],
  [([0x6469], [0x33383131]), ([0x656d616e], [0x2230325f6c6961745f36345f656761705f6b6369745f706f5f22]), ([0x657a697372646461], [0x6574756c6f736261]), ([0x65706f6373], [0x31]), ([0x666564], [0x3432312b3238362b3737352b37333331]), ([0x666572], [0x373333312b37333331]), ([0x6c6176], [0x454439367830]), ([0x676573], [0x30]), ([0x65707974], [0x62616c])]]

/-- player/iivision.dbg, sym lines 1184-1215 -/
def symLines37 : List (List (List Nat × List Nat)) := [
  [([0x6469], [0x34383131]), ([0x656d616e], [0x2235325f6c6961745f36345f656761705f6b6369745f706f5f22]), ([0x657a697372646461], [0x6574756c6f736261]), ([0x65706f6373], [0x31]), ([0x666564], [0x3432312b353431312b3737352b37333331]), ([0x6c6176], [0x424439367830]), ([0x676573], [0x30]), ([0x65707974], [0x62616c])],
  [([0x6469], [0x35383131]), ([0x656d616e], [0x2239325f6c6961745f36345f656761705f6b6369745f706f5f22]), ([0x657a697372646461], [0x6574756c6f736261]), ([0x65706f6373], [0x31]), ([0x666564], [0x3432312b343632312b3737352b37333331]), ([0x6c6176], [0x384439367830]), ([0x676573], [0x30]), ([0x65707974], [0x62616c])],
  [([0x6469], [0x36383131]), ([0x656d616e], [0x2234335f6c6961745f36345f656761705f6b6369745f706f5f22]), ([0x657a697372646461], [0x6574756c6f736261]), ([0x65706f6373], [0x31]), ([0x666564], [0x3432312b3538342b3737352b37333331]), ([0x666572], [0x37333331]), ([0x6c6176], [0x354439367830]), ([0x676573], [0x30]), ([0x65707974], [0x62616c])],
  [([0x6469], [0x37383131]), ([0x656d616e], [0x2238335f6c6961745f36345f656761705f6b6369745f706f5f22]), ([0x657a697372646461], [0x6574756c6f736261]), ([0x65706f6373], [0x31]), ([0x666564], [0x3432312b3435352b3737352b37333331]), ([0x666572], [0x37333331]), ([0x6c6176], [0x324439367830]), ([0x676573], [0x30]), ([0x65707974], [0x62616c])],
  [([0x6469], [0x38383131]), ([0x656d616e], [0x2233345f6c6961745f36345f656761705f6b6369745f706f5f22]), ([0x657a697372646461], [0x6574756c6f736261]), ([0x65706f6373], [0x31]), ([0x666564], [0x3432312b383433312b3737352b37333331]), ([0x666572], [0x37333331]), ([0x6c6176], [0x464339367830]), ([0x676573], [0x30]), ([0x65707974], [0x62616c])],
  [([0x6469], [0x39383131]), ([0x656d616e], [0x2237345f6c6961745f36345f656761705f6b6369745f706f5f22]), ([0x657a697372646461], [0x6574756c6f736261]), ([0x65706f6373], [0x31]), ([0x666564], [0x3432312b3637372b3737352b37333331]), ([0x6c6176], [0x434339367830]), ([0x676573], [0x30]), ([0x65707974], [0x62616c])],
  [([0x6469], [0x30393131]), ([0x656d616e], [0x2232355f6c6961745f36345f656761705f6b6369745f706f5f22]), ([0x657a697372646461], [0x6574756c6f736261]), ([0x65706f6373], [0x31]), ([0x666564], [0x3432312b3137362b3737352b37333331]), ([0x666572], [0x37333331]), ([0x6c6176], [0x394339367830]), ([0x676573], [0x30]), ([0x65707974], [0x62616c])],
  [([0x6469], [0x31393131]), ([0x656d616e], [0x2236355f6c6961745f36345f656761705f6b6369745f706f5f22]), ([0x657a697372646461], [0x6574756c6f736261]), ([0x65706f6373], [0x31]), ([0x666564], [0x3432312b3839342b3737352b37333331]), ([0x666572], [0x37333331]), ([0x6c6176], [0x364339367830]), ([0x676573], [0x30]), ([0x65707974], [0x62616c])],
  [([0x6469], [0x32393131]), ([0x656d616e], [0x2230365f6c6961745f36345f656761705f6b6369745f706f5f22]), ([0x657a697372646461], [0x6574756c6f736261]), ([0x65706f6373], [0x31]), ([0x666564], [0x3432312b353632312b3737352b37333331]), ([0x6c6176], [0x334339367830]), ([0x676573], [0x30]), ([0x65707974], [0x62616c])],
  [([0x6469], [0x33393131]), ([0x656d616e], [0x2236345f656761705f365f6b6369745f706f22]), ([0x657a697372646461], [0x6574756c6f736261]), ([0x65706f6373], [0x31]), ([0x666564], [0x3432382b3737352b37333331]), ([0x6c6176], [0x414239367830]), ([0x676573], [0x30]), ([0x65707974], [0x62616c])],
  [([0x6469], [0x34393131]), ([0x656d616e], [0x22375f6c6961745f36345f656761705f6b6369745f706f5f22]), ([0x657a697372646461], [0x6574756c6f736261]), ([0x65706f6373], [0x31]), ([0x666564], [0x3432312b3330392b3337332b37333331]), ([0x6c6176], [0x344239367830]), ([0x676573], [0x30]), ([0x65707974], [0x62616c])],
  [([0x6469], [0x35393131]), ([0x656d616e], [0x2231315f6c6961745f36345f656761705f6b6369745f706f5f22]), ([0x657a697372646461], [0x6574756c6f736261]), ([0x65706f6373], [0x31]), ([0x666564], [0x3432312b333732312b3337332b37333331]), ([0x6c6176], [0x314239367830]), ([0x676573], [0x30]), ([0x65707974], [0x62616c])],
  [([0x6469], [0x36393131]), ([0x656d616e], [0x22706d6a5f36345f656761705f345f6b6369745f706f5f22]), ([0x657a697372646461], [0x6574756c6f736261]), ([0x65706f6373], [0x31]), ([0x666564], [0x3134322b3337332b37333331]), ([0x666572], [0x373333312b37333331]), ([0x6c6176], [0x374239367830]), ([0x676573], [0x30]), ([0x65707974], [0x62616c])],
  [([0x6469], [0x37393131]), ([0x656d616e], [0x2235315f6c6961745f36345f656761705f6b6369745f706f5f22]), ([0x657a697372646461], [0x6574756c6f736261]), ([0x65706f6373], [0x31]), ([0x666564], [0x3432312b3538352b3337332b37333331]), ([0x666572], [0x37333331]), ([0x6c6176], [0x454139367830]), ([0x676573], [0x30]), ([0x65707974], [0x62616c])],
  [([0x6469], [0x38393131]), ([0x656d616e], [0x2239315f6c6961745f36345f656761705f6b6369745f706f5f22]), ([0x657a697372646461], [0x6574756c6f736261]), ([0x65706f6373], [0x31]), ([0x666564], [0x3432312b3737322b3337332b37333331]), ([0x666572], [0x37333331]), ([0x6c6176], [0x424139367830]), ([0x676573], [0x30]), ([0x65707974], [0x62616c])],
  [([0x6469], [0x39393131]), ([0x656d616e], [0x2234325f6c6961745f36345f656761705f6b6369745f706f5f22]), ([0x657a697372646461], [0x6574756c6f736261]), ([0x65706f6373], [0x31]), ([0x666564], [0x3432312b3831352b3337332b37333331]), ([0x666572], [0x373333312b37333331]), ([0x6c6176], [0x384139367830]), ([0x676573], [0x30]), ([0x65707974], [0x62616c])],
  [([0x6469], [0x30303231]), ([0x656d616e], [0x2238325f6c6961745f36345f656761705f6b6369745f706f5f22]), ([0x657a697372646461], [0x6574756c6f736261]), ([0x65706f6373], [0x31]), ([0x666564], [0x3432312b3436312b3337332b37333331]), ([0x666572], [0x37333331]), ([0x6c6176], [0x354139367830]), ([0x676573], [0x30]), ([0x65707974], [0x62616c])],
  [([0x6469], [0x31303231]), ([0x656d616e], [0x2233335f6c6961745f36345f656761705f6b6369745f706f5f22]), ([0x657a697372646461], [0x6574756c6f736261]), ([0x65706f6373], [0x31]), ([0x666564], [0x3432312b3435312b3337332b37333331]), ([0x666572], [0x37333331]), ([0x6c6176], [0x324139367830]), ([0x676573], [0x30]), ([0x65707974], [0x62616c])],
  [([0x6469], [0x32303231]), ([0x656d616e], [0x2237335f6c6961745f36345f656761705f6b6369745f706f5f22]), ([0x657a697372646461], [0x6574756c6f736261]), ([0x65706f6373], [0x31]), ([0x666564], [0x3432312b373532312b3337332b37333331]), ([0x666572], [0x37333331]), ([0x6c6176], [0x463939367830]), ([0x676573], [0x30]), ([0x65707974], [0x62616c])],
  [([0x6469], [0x33303231]), ([0x656d616e], [0x2232345f6c6961745f36345f656761705f6b6369745f706f5f22]), ([0x657a697372646461], [0x6574756c6f736261]), ([0x65706f6373], [0x31]), ([0x666564], [0x3432312b323033312b3337332b37333331]), ([0x666572], [0x373333312b37333331]), ([0x6c6176], [0x433939367830]), ([0x676573], [0x30]), ([0x65707974], [0x62616c])],
  [([0x6469], [0x34303231]), ([0x656d616e], [0x2236345f6c6961745f36345f656761705f6b6369745f706f5f22]), ([0x657a697372646461], [0x6574756c6f736261]), ([0x65706f6373], [0x31]), ([0x666564], [0x3432312b3530382b3337332b37333331]), ([0x666572], [0x37333331]), ([0x6c6176], [0x393939367830]), ([0x676573], [0x30]), ([0x65707974], [0x62616c])],
  [([0x6469], [0x35303231]), ([0x656d616e], [0x2231355f6c6961745f36345f656761705f6b6369745f706f5f22]), ([0x657a697372646461], [0x6574756c6f736261]), ([0x65706f6373], [0x31]), ([0x666564], [0x3432312b343231312b3337332b37333331]), ([0x666572], [0x37333331]), ([0x6c6176], [0x363939367830]), ([0x676573], [0x30]), ([0x65707974], [0x62616c])],
  [([0x6469], [0x36303231]), ([0x656d616e], [0x2235355f6c6961745f36345f656761705f6b6369745f706f5f22]), ([0x657a697372646461], [0x6574756c6f736261]), ([0x65706f6373], [0x31]), ([0x666564], [0x3432312b3332332b3337332b37333331]), ([0x666572], [0x37333331]), ([0x6c6176], [0x333939367830]), ([0x676573], [0x30]), ([0x65707974], [0x62616c])],
  [([0x6469], [0x37303231]), ([0x656d616e], [0x2239355f6c6961745f36345f656761705f6b6369745f706f5f22]), ([0x657a697372646461], [0x6574756c6f736261]), ([0x65706f6373], [0x31]), ([0x666564], [0x3432312b323431312b3337332b37333331]), ([0x6c6176], [0x303939367830]), ([0x676573], [0x30]), ([0x65707974], [0x62616c])],
  [([0x6469], [0x38303231]), ([0x656d616e], [0x2236345f656761705f345f6b6369745f706f22]), ([0x657a697372646461], [0x6574756c6f736261]), ([0x65706f6373], [0x31]), ([0x666564], [0x323630312b3337332b37333331]), ([0x6c6176], [0x363839367830]), ([0x676573], [0x30]), ([0x65707974], [0x62616c])],
  [([0x6469], [0x39303231]), ([0x656d616e], [0x22444022]), ([0x657a697372646461], [0x6574756c6f736261]), ([0x746e65726170], [0x30313231]), ([0x666564], [0x3435322b3833312b383635]), ([0x666572], [0x3836352b383635]), ([0x6c6176], [0x333839367830]), ([0x676573], [0x30]), ([0x65707974], [0x62616c])],
  [([0x6469], [0x30313231]), ([0x656d616e], [0x2235345f656761705f36365f6b6369745f706f22]), ([0x657a697372646461], [0x6574756c6f736261]), ([0x65706f6373], [0x31]), ([0x666564], [0x3739362b3833312b383635]), ([0x6c6176], [0x323539367830]), ([0x676573], [0x30]), ([0x65707974], [0x62616c])],
  [([0x6469], [0x31313231]), ([0x656d616e], [0x22444022]), ([0x657a697372646461], [0x6574756c6f736261]), ([0x746e65726170], [0x32313231]), ([0x666564], [0x3030372b313030312b383635]), ([0x666572], [0x3836352b383635]), ([0x6c6176], [0x463439367830]), ([0x676573], [0x30]), ([0x65707974], [0x62616c])],
  [([0x6469], [0x32313231]), ([0x656d616e], [0x2235345f656761705f34365f6b6369745f706f22]), ([0x657a697372646461], [0x6574756c6f736261]), ([0x65706f6373], [0x31]), ([0x666564], [0x3937392b313030312b383635]), ([0x6c6176], [0x453139367830]), ([0x676573], [0x30]), ([0x65707974], [0x62616c])],
  [([0x6469], [0x33313231]), ([0x656d616e], [0x22444022]), ([0x657a697372646461], [0x6574756c6f736261]), ([0x746e65726170], [0x34313231]), ([0x666564], [0x3033382b3436362b383635]), ([0x666572], [0x3836352b383635]), ([0x6c6176], [0x423139367830]), ([0x676573], [0x30]), ([0x65707974], [0x62616c])],
  [([0x6469], [0x34313231]), ([0x656d616e], [0x2235345f656761705f32365f6b6369745f706f22]), ([0x657a697372646461], [0x6574756c6f736261]), ([0x65706f6373], [0x31]), ([0x666564], [0x3236322b3436362b383635]), ([0x6c6176], [0x414538367830]), ([0x676573], [0x30]), ([0x65707974], [0x62616c])],
  [([0x6469], [0x35313231]), ([0x656d616e], [0x22444022]), ([0x657a697372646461], [0x6574756c6f736261]), ([0x746e65726170], [0x36313231]), ([0x666564], [0x3332382b3937372b383635]), ([0x666572], [0x3836352b383635]), ([0x6c6176], [0x374538367830]), ([0x676573], [0x30]), ([0x65707974], [0x62616c])]]

/-- player/iivision.dbg, sym lines 1216-1247 -/
def symLines38 : List (List (List Nat × List Nat)) := [
  [([0x6469], [0x36313231]), ([0x656d616e], [0x2235345f656761705f30365f6b6369745f706f22]), ([0x657a697372646461], [0x6574756c6f736261]), ([0x65706f6373], [0x31]), ([0x666564], [0x3532372b3937372b383635]), ([0x6c6176], [0x364238367830]), ([0x676573], [0x30]), ([0x65707974], [0x62616c])],
  [([0x6469], [0x37313231]), ([0x656d616e], [0x22444022]), ([0x657a697372646461], [0x6574756c6f736261]), ([0x746e65726170], [0x38313231]), ([0x666564], [0x383831312b3031352b383635]), ([0x666572], [0x3836352b383635]), ([0x6c6176], [0x334238367830]), ([0x676573], [0x30]), ([0x65707974], [0x62616c])],
  [([0x6469], [0x38313231]), ([0x656d616e], [0x2235345f656761705f38355f6b6369745f706f22]), ([0x657a697372646461], [0x6574756c6f736261]), ([0x65706f6373], [0x31]), ([0x666564], [0x3638392b3031352b383635]), ([0x6c6176], [0x323838367830]), ([0x676573], [0x30]), ([0x65707974], [0x62616c])],
  [([0x6469], [0x39313231]), ([0x656d616e], [0x22444022]), ([0x657a697372646461], [0x6574756c6f736261]), ([0x746e65726170], [0x30323231]), ([0x666564], [0x3130382b3430372b383635]), ([0x666572], [0x3836352b383635]), ([0x6c6176], [0x463738367830]), ([0x676573], [0x30]), ([0x65707974], [0x62616c])],
  [([0x6469], [0x30323231]), ([0x656d616e], [0x2235345f656761705f36355f6b6369745f706f22]), ([0x657a697372646461], [0x6574756c6f736261]), ([0x65706f6373], [0x31]), ([0x666564], [0x363832312b3430372b383635]), ([0x6c6176], [0x453438367830]), ([0x676573], [0x30]), ([0x65707974], [0x62616c])],
  [([0x6469], [0x31323231]), ([0x656d616e], [0x22444022]), ([0x657a697372646461], [0x6574756c6f736261]), ([0x746e65726170], [0x32323231]), ([0x666564], [0x323230312b3132362b383635]), ([0x666572], [0x3836352b383635]), ([0x6c6176], [0x423438367830]), ([0x676573], [0x30]), ([0x65707974], [0x62616c])],
  [([0x6469], [0x32323231]), ([0x656d616e], [0x2235345f656761705f34355f6b6369745f706f22]), ([0x657a697372646461], [0x6574756c6f736261]), ([0x65706f6373], [0x31]), ([0x666564], [0x313032312b3132362b383635]), ([0x6c6176], [0x413138367830]), ([0x676573], [0x30]), ([0x65707974], [0x62616c])],
  [([0x6469], [0x33323231]), ([0x656d616e], [0x2235345f656761705f32355f6b6369745f706f22]), ([0x657a697372646461], [0x6574756c6f736261]), ([0x65706f6373], [0x31]), ([0x666564], [0x3335312b3438382b383635]), ([0x6c6176], [0x464537367830]), ([0x676573], [0x30]), ([0x65707974], [0x62616c])],
  [([0x6469], [0x34323231]), ([0x656d616e], [0x2235345f656761705f30355f6b6369745f706f22]), ([0x657a697372646461], [0x6574756c6f736261]), ([0x65706f6373], [0x31]), ([0x666564], [0x3236392b3431312b383635]), ([0x6c6176], [0x374337367830]), ([0x676573], [0x30]), ([0x65707974], [0x62616c])],
  [([0x6469], [0x35323231]), ([0x656d616e], [0x2235345f656761705f38345f6b6369745f706f22]), ([0x657a697372646461], [0x6574756c6f736261]), ([0x65706f6373], [0x31]), ([0x666564], [0x3933342b363230312b383635]), ([0x6c6176], [0x453937367830]), ([0x676573], [0x30]), ([0x65707974], [0x62616c])],
  [([0x6469], [0x36323231]), ([0x656d616e], [0x2235345f656761705f36345f6b6369745f706f22]), ([0x657a697372646461], [0x6574756c6f736261]), ([0x65706f6373], [0x31]), ([0x666564], [0x343430312b3734362b383635]), ([0x6c6176], [0x393737367830]), ([0x676573], [0x30]), ([0x65707974], [0x62616c])],
  [([0x6469], [0x37323231]), ([0x656d616e], [0x2235345f656761705f34345f6b6369745f706f22]), ([0x657a697372646461], [0x6574756c6f736261]), ([0x65706f6373], [0x31]), ([0x666564], [0x3634352b3836322b383635]), ([0x6c6176], [0x333537367830]), ([0x676573], [0x30]), ([0x65707974], [0x62616c])],
  [([0x6469], [0x38323231]), ([0x656d616e], [0x2235345f656761705f32345f6b6369745f706f22]), ([0x657a697372646461], [0x6574756c6f736261]), ([0x65706f6373], [0x31]), ([0x666564], [0x37362b32362b383635]), ([0x6c6176], [0x303337367830]), ([0x676573], [0x30]), ([0x65707974], [0x62616c])],
  [([0x6469], [0x39323231]), ([0x656d616e], [0x2235345f656761705f30345f6b6369745f706f22]), ([0x657a697372646461], [0x6574756c6f736261]), ([0x65706f6373], [0x31]), ([0x666564], [0x323232312b343131312b383635]), ([0x6c6176], [0x443037367830]), ([0x676573], [0x30]), ([0x65707974], [0x62616c])],
  [([0x6469], [0x30333231]), ([0x656d616e], [0x2235345f656761705f38335f6b6369745f706f22]), ([0x657a697372646461], [0x6574756c6f736261]), ([0x65706f6373], [0x31]), ([0x666564], [0x353633312b3930362b383635]), ([0x6c6176], [0x444536367830]), ([0x676573], [0x30]), ([0x65707974], [0x62616c])],
  [([0x6469], [0x31333231]), ([0x656d616e], [0x22444022]), ([0x657a697372646461], [0x6574756c6f736261]), ([0x746e65726170], [0x32333231]), ([0x666564], [0x333932312b363332312b383635]), ([0x666572], [0x3836352b383635]), ([0x6c6176], [0x414536367830]), ([0x676573], [0x30]), ([0x65707974], [0x62616c])],
  [([0x6469], [0x32333231]), ([0x656d616e], [0x2235345f656761705f36335f6b6369745f706f22]), ([0x657a697372646461], [0x6574756c6f736261]), ([0x65706f6373], [0x31]), ([0x666564], [0x3036382b363332312b383635]), ([0x6c6176], [0x394236367830]), ([0x676573], [0x30]), ([0x65707974], [0x62616c])],
  [([0x6469], [0x33333231]), ([0x656d616e], [0x2235345f656761705f34335f6b6369745f706f22]), ([0x657a697372646461], [0x6574756c6f736261]), ([0x65706f6373], [0x31]), ([0x666564], [0x343030312b363330312b383635]), ([0x6c6176], [0x333936367830]), ([0x676573], [0x30]), ([0x65707974], [0x62616c])],
  [([0x6469], [0x34333231]), ([0x656d616e], [0x2235345f656761705f32335f6b6369745f706f22]), ([0x657a697372646461], [0x6574756c6f736261]), ([0x65706f6373], [0x31]), ([0x666564], [0x3234362b393230312b383635]), ([0x6c6176], [0x373736367830]), ([0x676573], [0x30]), ([0x65707974], [0x62616c])],
  [([0x6469], [0x35333231]), ([0x656d616e], [0x2235345f656761705f30335f6b6369745f706f22]), ([0x657a697372646461], [0x6574756c6f736261]), ([0x65706f6373], [0x31]), ([0x666564], [0x373330312b373130312b383635]), ([0x6c6176], [0x413536367830]), ([0x676573], [0x30]), ([0x65707974], [0x62616c])],
  [([0x6469], [0x36333231]), ([0x656d616e], [0x2235345f656761705f38325f6b6369745f706f22]), ([0x657a697372646461], [0x6574756c6f736261]), ([0x65706f6373], [0x31]), ([0x666564], [0x3231322b3637312b383635]), ([0x6c6176], [0x313436367830]), ([0x676573], [0x30]), ([0x65707974], [0x62616c])],
  [([0x6469], [0x37333231]), ([0x656d616e], [0x2235345f656761705f36325f6b6369745f706f22]), ([0x657a697372646461], [0x6574756c6f736261]), ([0x65706f6373], [0x31]), ([0x666564], [0x3038352b3831322b383635]), ([0x6c6176], [0x373236367830]), ([0x676573], [0x30]), ([0x65707974], [0x62616c])],
  [([0x6469], [0x38333231]), ([0x656d616e], [0x2235345f656761705f34325f6b6369745f706f22]), ([0x657a697372646461], [0x6574756c6f736261]), ([0x65706f6373], [0x31]), ([0x666564], [0x3837362b333232312b383635]), ([0x6c6176], [0x303136367830]), ([0x676573], [0x30]), ([0x65707974], [0x62616c])],
  [([0x6469], [0x39333231]), ([0x656d616e], [0x2235345f656761705f32325f6b6369745f706f22]), ([0x657a697372646461], [0x6574756c6f736261]), ([0x65706f6373], [0x31]), ([0x666564], [0x323931312b373033312b383635]), ([0x6c6176], [0x394635367830]), ([0x676573], [0x30]), ([0x65707974], [0x62616c])],
  [([0x6469], [0x30343231]), ([0x656d616e], [0x2235345f656761705f30325f6b6369745f706f22]), ([0x657a697372646461], [0x6574756c6f736261]), ([0x65706f6373], [0x31]), ([0x666564], [0x32332b373732312b383635]), ([0x6c6176], [0x354535367830]), ([0x676573], [0x30]), ([0x65707974], [0x62616c])],
  [([0x6469], [0x31343231]), ([0x656d616e], [0x22444022]), ([0x657a697372646461], [0x6574756c6f736261]), ([0x746e65726170], [0x32343231]), ([0x666564], [0x3430352b38392b383635]), ([0x666572], [0x3836352b383635]), ([0x6c6176], [0x324535367830]), ([0x676573], [0x30]), ([0x65707974], [0x62616c])],
  [([0x6469], [0x32343231]), ([0x656d616e], [0x2235345f656761705f38315f6b6369745f706f22]), ([0x657a697372646461], [0x6574756c6f736261]), ([0x65706f6373], [0x31]), ([0x666564], [0x323032312b38392b383635]), ([0x6c6176], [0x314235367830]), ([0x676573], [0x30]), ([0x65707974], [0x62616c])],
  [([0x6469], [0x33343231]), ([0x656d616e], [0x2235345f656761705f36315f6b6369745f706f22]), ([0x657a697372646461], [0x6574756c6f736261]), ([0x65706f6373], [0x31]), ([0x666564], [0x3032382b3332392b383635]), ([0x6c6176], [0x413935367830]), ([0x676573], [0x30]), ([0x65707974], [0x62616c])],
  [([0x6469], [0x34343231]), ([0x656d616e], [0x2235345f656761705f34315f6b6369745f706f22]), ([0x657a697372646461], [0x6574756c6f736261]), ([0x65706f6373], [0x31]), ([0x666564], [0x33312b3430332b383635]), ([0x6c6176], [0x413835367830]), ([0x676573], [0x30]), ([0x65707974], [0x62616c])],
  [([0x6469], [0x35343231]), ([0x656d616e], [0x2235345f656761705f32315f6b6369745f706f22]), ([0x657a697372646461], [0x6574756c6f736261]), ([0x65706f6373], [0x31]), ([0x666564], [0x3736372b383431312b383635]), ([0x6c6176], [0x393735367830]), ([0x676573], [0x30]), ([0x65707974], [0x62616c])],
  [([0x6469], [0x36343231]), ([0x656d616e], [0x2235345f656761705f30315f6b6369745f706f22]), ([0x657a697372646461], [0x6574756c6f736261]), ([0x65706f6373], [0x31]), ([0x666564], [0x3334392b3334372b383635]), ([0x6c6176], [0x433635367830]), ([0x676573], [0x30]), ([0x65707974], [0x62616c])],
  [([0x6469], [0x37343231]), ([0x656d616e], [0x2235345f656761705f385f6b6369745f706f22]), ([0x657a697372646461], [0x6574756c6f736261]), ([0x65706f6373], [0x31]), ([0x666564], [0x3132382b3037332b383635]), ([0x6c6176], [0x453535367830]), ([0x676573], [0x30]), ([0x65707974], [0x62616c])]]

/-- player/iivision.dbg, sym lines 1248-1279 -/
def symLines39 : List (List (List Nat × List Nat)) := [
  [([0x6469], [0x38343231]), ([0x656d616e], [0x22385f6c6961745f35345f656761705f6b6369745f706f5f22]), ([0x657a697372646461], [0x6574756c6f736261]), ([0x65706f6373], [0x31]), ([0x666564], [0x3432312b3033362b3737352b383635]), ([0x6c6176], [0x383535367830]), ([0x676573], [0x30]), ([0x65707974], [0x62616c])],
  [([0x6469], [0x39343231]), ([0x656d616e], [0x2232315f6c6961745f35345f656761705f6b6369745f706f5f22]), ([0x657a697372646461], [0x6574756c6f736261]), ([0x65706f6373], [0x31]), ([0x666564], [0x3432312b383430312b3737352b383635]), ([0x666572], [0x383635]), ([0x6c6176], [0x353535367830]), ([0x676573], [0x30]), ([0x65707974], [0x62616c])],
  [([0x6469], [0x30353231]), ([0x656d616e], [0x22706d6a5f35345f656761705f365f6b6369745f706f5f22]), ([0x657a697372646461], [0x6574756c6f736261]), ([0x65706f6373], [0x31]), ([0x666564], [0x3735372b3737352b383635]), ([0x666572], [0x3836352b3836352b383635]), ([0x6c6176], [0x423535367830]), ([0x676573], [0x30]), ([0x65707974], [0x62616c])],
  [([0x6469], [0x31353231]), ([0x656d616e], [0x2236315f6c6961745f35345f656761705f6b6369745f706f5f22]), ([0x657a697372646461], [0x6574756c6f736261]), ([0x65706f6373], [0x31]), ([0x666564], [0x3432312b3837312b3737352b383635]), ([0x666572], [0x383635]), ([0x6c6176], [0x323535367830]), ([0x676573], [0x30]), ([0x65707974], [0x62616c])],
  [([0x6469], [0x32353231]), ([0x656d616e], [0x2230325f6c6961745f35345f656761705f6b6369745f706f5f22]), ([0x657a697372646461], [0x6574756c6f736261]), ([0x65706f6373], [0x31]), ([0x666564], [0x3432312b3238362b3737352b383635]), ([0x666572], [0x3836352b383635]), ([0x6c6176], [0x463435367830]), ([0x676573], [0x30]), ([0x65707974], [0x62616c])],
  [([0x6469], [0x33353231]), ([0x656d616e], [0x2235325f6c6961745f35345f656761705f6b6369745f706f5f22]), ([0x657a697372646461], [0x6574756c6f736261]), ([0x65706f6373], [0x31]), ([0x666564], [0x3432312b353431312b3737352b383635]), ([0x6c6176], [0x433435367830]), ([0x676573], [0x30]), ([0x65707974], [0x62616c])],
  [([0x6469], [0x34353231]), ([0x656d616e], [0x2239325f6c6961745f35345f656761705f6b6369745f706f5f22]), ([0x657a697372646461], [0x6574756c6f736261]), ([0x65706f6373], [0x31]), ([0x666564], [0x3432312b343632312b3737352b383635]), ([0x6c6176], [0x393435367830]), ([0x676573], [0x30]), ([0x65707974], [0x62616c])],
  [([0x6469], [0x35353231]), ([0x656d616e], [0x2234335f6c6961745f35345f656761705f6b6369745f706f5f22]), ([0x657a697372646461], [0x6574756c6f736261]), ([0x65706f6373], [0x31]), ([0x666564], [0x3432312b3538342b3737352b383635]), ([0x666572], [0x383635]), ([0x6c6176], [0x363435367830]), ([0x676573], [0x30]), ([0x65707974], [0x62616c])],
  [([0x6469], [0x36353231]), ([0x656d616e], [0x2238335f6c6961745f35345f656761705f6b6369745f706f5f22]), ([0x657a697372646461], [0x6574756c6f736261]), ([0x65706f6373], [0x31]), ([0x666564], [0x3432312b3435352b3737352b383635]), ([0x666572], [0x383635]), ([0x6c6176], [0x333435367830]), ([0x676573], [0x30]), ([0x65707974], [0x62616c])],
  [([0x6469], [0x37353231]), ([0x656d616e], [0x2233345f6c6961745f35345f656761705f6b6369745f706f5f22]), ([0x657a697372646461], [0x6574756c6f736261]), ([0x65706f6373], [0x31]), ([0x666564], [0x3432312b383433312b3737352b383635]), ([0x666572], [0x383635]), ([0x6c6176], [0x303435367830]), ([0x676573], [0x30]), ([0x65707974], [0x62616c])],
  [([0x6469], [0x38353231]), ([0x656d616e], [0x2237345f6c6961745f35345f656761705f6b6369745f706f5f22]), ([0x657a697372646461], [0x6574756c6f736261]), ([0x65706f6373], [0x31]), ([0x666564], [0x3432312b3637372b3737352b383635]), ([0x6c6176], [0x443335367830]), ([0x676573], [0x30]), ([0x65707974], [0x62616c])],
  [([0x6469], [0x39353231]), ([0x656d616e], [0x2232355f6c6961745f35345f656761705f6b6369745f706f5f22]), ([0x657a697372646461], [0x6574756c6f736261]), ([0x65706f6373], [0x31]), ([0x666564], [0x3432312b3137362b3737352b383635]), ([0x666572], [0x383635]), ([0x6c6176], [0x413335367830]), ([0x676573], [0x30]), ([0x65707974], [0x62616c])],
  [([0x6469], [0x30363231]), ([0x656d616e], [0x2236355f6c6961745f35345f656761705f6b6369745f706f5f22]), ([0x657a697372646461], [0x6574756c6f736261]), ([0x65706f6373], [0x31]), ([0x666564], [0x3432312b3839342b3737352b383635]), ([0x666572], [0x383635]), ([0x6c6176], [0x373335367830]), ([0x676573], [0x30]), ([0x65707974], [0x62616c])],
  [([0x6469], [0x31363231]), ([0x656d616e], [0x2230365f6c6961745f35345f656761705f6b6369745f706f5f22]), ([0x657a697372646461], [0x6574756c6f736261]), ([0x65706f6373], [0x31]), ([0x666564], [0x3432312b353632312b3737352b383635]), ([0x6c6176], [0x343335367830]), ([0x676573], [0x30]), ([0x65707974], [0x62616c])],
  [([0x6469], [0x32363231]), ([0x656d616e], [0x2235345f656761705f365f6b6369745f706f22]), ([0x657a697372646461], [0x6574756c6f736261]), ([0x65706f6373], [0x31]), ([0x666564], [0x3432382b3737352b383635]), ([0x6c6176], [0x423235367830]), ([0x676573], [0x30]), ([0x65707974], [0x62616c])],
  [([0x6469], [0x33363231]), ([0x656d616e], [0x22375f6c6961745f35345f656761705f6b6369745f706f5f22]), ([0x657a697372646461], [0x6574756c6f736261]), ([0x65706f6373], [0x31]), ([0x666564], [0x3432312b3330392b3337332b383635]), ([0x6c6176], [0x353235367830]), ([0x676573], [0x30]), ([0x65707974], [0x62616c])],
  [([0x6469], [0x34363231]), ([0x656d616e], [0x2231315f6c6961745f35345f656761705f6b6369745f706f5f22]), ([0x657a697372646461], [0x6574756c6f736261]), ([0x65706f6373], [0x31]), ([0x666564], [0x3432312b333732312b3337332b383635]), ([0x6c6176], [0x323235367830]), ([0x676573], [0x30]), ([0x65707974], [0x62616c])],
  [([0x6469], [0x35363231]), ([0x656d616e], [0x22706d6a5f35345f656761705f345f6b6369745f706f5f22]), ([0x657a697372646461], [0x6574756c6f736261]), ([0x65706f6373], [0x31]), ([0x666564], [0x3134322b3337332b383635]), ([0x666572], [0x3836352b383635]), ([0x6c6176], [0x383235367830]), ([0x676573], [0x30]), ([0x65707974], [0x62616c])],
  [([0x6469], [0x36363231]), ([0x656d616e], [0x2235315f6c6961745f35345f656761705f6b6369745f706f5f22]), ([0x657a697372646461], [0x6574756c6f736261]), ([0x65706f6373], [0x31]), ([0x666564], [0x3432312b3538352b3337332b383635]), ([0x666572], [0x383635]), ([0x6c6176], [0x463135367830]), ([0x676573], [0x30]), ([0x65707974], [0x62616c])],
  [([0x6469], [0x37363231]), ([0x656d616e], [0x2239315f6c6961745f35345f656761705f6b6369745f706f5f22]), ([0x657a697372646461], [0x6574756c6f736261]), ([0x65706f6373], [0x31]), ([0x666564], [0x3432312b3737322b3337332b383635]), ([0x666572], [0x383635]), ([0x6c6176], [0x433135367830]), ([0x676573], [0x30]), ([0x65707974], [0x62616c])],
  [([0x6469], [0x38363231]), ([0x656d616e], [0x2234325f6c6961745f35345f656761705f6b6369745f706f5f22]), ([0x657a697372646461], [0x6574756c6f736261]), ([0x65706f6373], [0x31]), ([0x666564], [0x3432312b3831352b3337332b383635]), ([0x666572], [0x3836352b383635]), ([0x6c6176], [0x393135367830]), ([0x676573], [0x30]), ([0x65707974], [0x62616c])],
  [([0x6469], [0x39363231]), ([0x656d616e], [0x2238325f6c6961745f35345f656761705f6b6369745f706f5f22]), ([0x657a697372646461], [0x6574756c6f736261]), ([0x65706f6373], [0x31]), ([0x666564], [0x3432312b3436312b3337332b383635]), ([0x666572], [0x383635]), ([0x6c6176], [0x363135367830]), ([0x676573], [0x30]), ([0x65707974], [0x62616c])],
  [([0x6469], [0x30373231]), ([0x656d616e], [0x2233335f6c6961745f35345f656761705f6b6369745f706f5f22]), ([0x657a697372646461], [0x6574756c6f736261]), ([0x65706f6373], [0x31]), ([0x666564], [0x3432312b3435312b3337332b383635]), ([0x666572], [0x383635]), ([0x6c6176], [0x333135367830]), ([0x676573], [0x30]), ([0x65707974], [0x62616c])],
  [([0x6469], [0x31373231]), ([0x656d616e], [0x2237335f6c6961745f35345f656761705f6b6369745f706f5f22]), ([0x657a697372646461], [0x6574756c6f736261]), ([0x65706f6373], [0x31]), ([0x666564], [0x3432312b373532312b3337332b383635]), ([0x666572], [0x383635]), ([0x6c6176], [0x303135367830]), ([0x676573], [0x30]), ([0x65707974], [0x62616c])],
  [([0x6469], [0x32373231]), ([0x656d616e], [0x2232345f6c6961745f35345f656761705f6b6369745f706f5f22]), ([0x657a697372646461], [0x6574756c6f736261]), ([0x65706f6373], [0x31]), ([0x666564], [0x3432312b323033312b3337332b383635]), ([0x666572], [0x3836352b383635]), ([0x6c6176], [0x443035367830]), ([0x676573], [0x30]), ([0x65707974], [0x62616c])],
  [([0x6469], [0x33373231]), ([0x656d616e], [0x2236345f6c6961745f35345f656761705f6b6369745f706f5f22]), ([0x657a697372646461], [0x6574756c6f736261]), ([0x65706f6373], [0x31]), ([0x666564], [0x3432312b3530382b3337332b383635]), ([0x666572], [0x383635]), ([0x6c6176], [0x413035367830]), ([0x676573], [0x30]), ([0x65707974], [0x62616c])],
  [([0x6469], [0x34373231]), ([0x656d616e], [0x2231355f6c6961745f35345f656761705f6b6369745f706f5f22]), ([0x657a697372646461], [0x6574756c6f736261]), ([0x65706f6373], [0x31]), ([0x666564], [0x3432312b343231312b3337332b383635]), ([0x666572], [0x383635]), ([0x6c6176], [0x373035367830]), ([0x676573], [0x30]), ([0x65707974], [0x62616c])],
  [([0x6469], [0x35373231]), ([0x656d616e], [0x2235355f6c6961745f35345f656761705f6b6369745f706f5f22]), ([0x657a697372646461], [0x6574756c6f736261]), ([0x65706f6373], [0x31]), ([0x666564], [0x3432312b3332332b3337332b383635]), ([0x666572], [0x383635]), ([0x6c6176], [0x343035367830]), ([0x676573], [0x30]), ([0x65707974], [0x62616c])],
  [([0x6469], [0x36373231]), ([0x656d616e], [0x2239355f6c6961745f35345f656761705f6b6369745f706f5f22]), ([0x657a697372646461], [0x6574756c6f736261]), ([0x65706f6373], [0x31]), ([0x666564], [0x3432312b323431312b3337332b383635]), ([0x6c6176], [0x313035367830]), ([0x676573], [0x30]), ([0x65707974], [0x62616c])],
  [([0x6469], [0x37373231]), ([0x656d616e], [0x2235345f656761705f345f6b6369745f706f22]), ([0x657a697372646461], [0x6574756c6f736261]), ([0x65706f6373], [0x31]), ([0x666564], [0x323630312b3337332b383635]), ([0x6c6176], [0x374634367830]), ([0x676573], [0x30]), ([0x65707974], [0x62616c])],
  [([0x6469], [0x38373231]), ([0x656d616e], [0x22444022]), ([0x657a697372646461], [0x6574756c6f736261]), ([0x746e65726170], [0x39373231]), ([0x666564], [0x3435322b3833312b373036]), ([0x666572], [0x3730362b373036]), ([0x6c6176], [0x344634367830]), ([0x676573], [0x30]), ([0x65707974], [0x62616c])],
  [([0x6469], [0x39373231]), ([0x656d616e], [0x2234345f656761705f36365f6b6369745f706f22]), ([0x657a697372646461], [0x6574756c6f736261]), ([0x65706f6373], [0x31]), ([0x666564], [0x3739362b3833312b373036]), ([0x6c6176], [0x334334367830]), ([0x676573], [0x30]), ([0x65707974], [0x62616c])]]

/-- player/iivision.dbg, sym lines 1280-1311 -/
def symLines40 : List (List (List Nat × List Nat)) := [
  [([0x6469], [0x30383231]), ([0x656d616e], [0x22444022]), ([0x657a697372646461], [0x6574756c6f736261]), ([0x746e65726170], [0x31383231]), ([0x666564], [0x3030372b313030312b373036]), ([0x666572], [0x3730362b373036]), ([0x6c6176], [0x304334367830]), ([0x676573], [0x30]), ([0x65707974], [0x62616c])],
  [([0x6469], [0x31383231]), ([0x656d616e], [0x2234345f656761705f34365f6b6369745f706f22]), ([0x657a697372646461], [0x6574756c6f736261]), ([0x65706f6373], [0x31]), ([0x666564], [0x3937392b313030312b373036]), ([0x6c6176], [0x463834367830]), ([0x676573], [0x30]), ([0x65707974], [0x62616c])],
  [([0x6469], [0x32383231]), ([0x656d616e], [0x22444022]), ([0x657a697372646461], [0x6574756c6f736261]), ([0x746e65726170], [0x33383231]), ([0x666564], [0x3033382b3436362b373036]), ([0x666572], [0x3730362b373036]), ([0x6c6176], [0x433834367830]), ([0x676573], [0x30]), ([0x65707974], [0x62616c])],
  [([0x6469], [0x33383231]), ([0x656d616e], [0x2234345f656761705f32365f6b6369745f706f22]), ([0x657a697372646461], [0x6574756c6f736261]), ([0x65706f6373], [0x31]), ([0x666564], [0x3236322b3436362b373036]), ([0x6c6176], [0x423534367830]), ([0x676573], [0x30]), ([0x65707974], [0x62616c])],
  [([0x6469], [0x34383231]), ([0x656d616e], [0x22444022]), ([0x657a697372646461], [0x6574756c6f736261]), ([0x746e65726170], [0x35383231]), ([0x666564], [0x3332382b3937372b373036]), ([0x666572], [0x3730362b373036]), ([0x6c6176], [0x383534367830]), ([0x676573], [0x30]), ([0x65707974], [0x62616c])],
  [([0x6469], [0x35383231]), ([0x656d616e], [0x2234345f656761705f30365f6b6369745f706f22]), ([0x657a697372646461], [0x6574756c6f736261]), ([0x65706f6373], [0x31]), ([0x666564], [0x3532372b3937372b373036]), ([0x6c6176], [0x373234367830]), ([0x676573], [0x30]), ([0x65707974], [0x62616c])],
  [([0x6469], [0x36383231]), ([0x656d616e], [0x22444022]), ([0x657a697372646461], [0x6574756c6f736261]), ([0x746e65726170], [0x37383231]), ([0x666564], [0x383831312b3031352b373036]), ([0x666572], [0x3730362b373036]), ([0x6c6176], [0x343234367830]), ([0x676573], [0x30]), ([0x65707974], [0x62616c])],
  [([0x6469], [0x37383231]), ([0x656d616e], [0x2234345f656761705f38355f6b6369745f706f22]), ([0x657a697372646461], [0x6574756c6f736261]), ([0x65706f6373], [0x31]), ([0x666564], [0x3638392b3031352b373036]), ([0x6c6176], [0x334633367830]), ([0x676573], [0x30]), ([0x65707974], [0x62616c])],
  [([0x6469], [0x38383231]), ([0x656d616e], [0x22444022]), ([0x657a697372646461], [0x6574756c6f736261]), ([0x746e65726170], [0x39383231]), ([0x666564], [0x3130382b3430372b373036]), ([0x666572], [0x3730362b373036]), ([0x6c6176], [0x304633367830]), ([0x676573], [0x30]), ([0x65707974], [0x62616c])],
  [([0x6469], [0x39383231]), ([0x656d616e], [0x2234345f656761705f36355f6b6369745f706f22]), ([0x657a697372646461], [0x6574756c6f736261]), ([0x65706f6373], [0x31]), ([0x666564], [0x363832312b3430372b373036]), ([0x6c6176], [0x464233367830]), ([0x676573], [0x30]), ([0x65707974], [0x62616c])],
  [([0x6469], [0x30393231]), ([0x656d616e], [0x22444022]), ([0x657a697372646461], [0x6574756c6f736261]), ([0x746e65726170], [0x31393231]), ([0x666564], [0x323230312b3132362b373036]), ([0x666572], [0x3730362b373036]), ([0x6c6176], [0x434233367830]), ([0x676573], [0x30]), ([0x65707974], [0x62616c])],
  [([0x6469], [0x31393231]), ([0x656d616e], [0x2234345f656761705f34355f6b6369745f706f22]), ([0x657a697372646461], [0x6574756c6f736261]), ([0x65706f6373], [0x31]), ([0x666564], [0x313032312b3132362b373036]), ([0x6c6176], [0x423833367830]), ([0x676573], [0x30]), ([0x65707974], [0x62616c])],
  [([0x6469], [0x32393231]), ([0x656d616e], [0x2234345f656761705f32355f6b6369745f706f22]), ([0x657a697372646461], [0x6574756c6f736261]), ([0x65706f6373], [0x31]), ([0x666564], [0x3335312b3438382b373036]), ([0x6c6176], [0x303633367830]), ([0x676573], [0x30]), ([0x65707974], [0x62616c])],
  [([0x6469], [0x33393231]), ([0x656d616e], [0x2234345f656761705f30355f6b6369745f706f22]), ([0x657a697372646461], [0x6574756c6f736261]), ([0x65706f6373], [0x31]), ([0x666564], [0x3236392b3431312b373036]), ([0x6c6176], [0x383333367830]), ([0x676573], [0x30]), ([0x65707974], [0x62616c])],
  [([0x6469], [0x34393231]), ([0x656d616e], [0x2234345f656761705f38345f6b6369745f706f22]), ([0x657a697372646461], [0x6574756c6f736261]), ([0x65706f6373], [0x31]), ([0x666564], [0x3933342b363230312b373036]), ([0x6c6176], [0x463033367830]), ([0x676573], [0x30]), ([0x65707974], [0x62616c])],
  [([0x6469], [0x35393231]), ([0x656d616e], [0x2234345f656761705f36345f6b6369745f706f22]), ([0x657a697372646461], [0x6574756c6f736261]), ([0x65706f6373], [0x31]), ([0x666564], [0x343430312b3734362b373036]), ([0x6c6176], [0x414532367830]), ([0x676573], [0x30]), ([0x65707974], [0x62616c])],
  [([0x6469], [0x36393231]), ([0x656d616e], [0x2234345f656761705f34345f6b6369745f706f22]), ([0x657a697372646461], [0x6574756c6f736261]), ([0x65706f6373], [0x31]), ([0x666564], [0x3634352b3836322b373036]), ([0x6c6176], [0x344332367830]), ([0x676573], [0x30]), ([0x65707974], [0x62616c])],
  [([0x6469], [0x37393231]), ([0x656d616e], [0x2234345f656761705f32345f6b6369745f706f22]), ([0x657a697372646461], [0x6574756c6f736261]), ([0x65706f6373], [0x31]), ([0x666564], [0x37362b32362b373036]), ([0x6c6176], [0x314132367830]), ([0x676573], [0x30]), ([0x65707974], [0x62616c])],
  [([0x6469], [0x38393231]), ([0x656d616e], [0x2234345f656761705f30345f6b6369745f706f22]), ([0x657a697372646461], [0x6574756c6f736261]), ([0x65706f6373], [0x31]), ([0x666564], [0x323232312b343131312b373036]), ([0x6c6176], [0x453732367830]), ([0x676573], [0x30]), ([0x65707974], [0x62616c])],
  [([0x6469], [0x39393231]), ([0x656d616e], [0x2234345f656761705f38335f6b6369745f706f22]), ([0x657a697372646461], [0x6574756c6f736261]), ([0x65706f6373], [0x31]), ([0x666564], [0x353633312b3930362b373036]), ([0x6c6176], [0x453532367830]), ([0x676573], [0x30]), ([0x65707974], [0x62616c])],
  [([0x6469], [0x30303331]), ([0x656d616e], [0x22444022]), ([0x657a697372646461], [0x6574756c6f736261]), ([0x746e65726170], [0x31303331]), ([0x666564], [0x333932312b363332312b373036]), ([0x666572], [0x3730362b373036]), ([0x6c6176], [0x423532367830]), ([0x676573], [0x30]), ([0x65707974], [0x62616c])],
  [([0x6469], [0x31303331]), ([0x656d616e], [0x2234345f656761705f36335f6b6369745f706f22]), ([0x657a697372646461], [0x6574756c6f736261]), ([0x65706f6373], [0x31]), ([0x666564], [0x3036382b363332312b373036]), ([0x6c6176], [0x413232367830]), ([0x676573], [0x30]), ([0x65707974], [0x62616c])],
  [([0x6469], [0x32303331]), ([0x656d616e], [0x2234345f656761705f34335f6b6369745f706f22]), ([0x657a697372646461], [0x6574756c6f736261]), ([0x65706f6373], [0x31]), ([0x666564], [0x343030312b363330312b373036]), ([0x6c6176], [0x343032367830]), ([0x676573], [0x30]), ([0x65707974], [0x62616c])],
  [([0x6469], [0x33303331]), ([0x656d616e], [0x2234345f656761705f32335f6b6369745f706f22]), ([0x657a697372646461], [0x6574756c6f736261]), ([0x65706f6373], [0x31]), ([0x666564], [0x3234362b393230312b373036]), ([0x6c6176], [0x384531367830]), ([0x676573], [0x30]), ([0x65707974], [0x62616c])],
  [([0x6469], [0x34303331]), ([0x656d616e], [0x2234345f656761705f30335f6b6369745f706f22]), ([0x657a697372646461], [0x6574756c6f736261]), ([0x65706f6373], [0x31]), ([0x666564], [0x373330312b373130312b373036]), ([0x6c6176], [0x424331367830]), ([0x676573], [0x30]), ([0x65707974], [0x62616c])],
  [([0x6469], [0x35303331]), ([0x656d616e], [0x2234345f656761705f38325f6b6369745f706f22]), ([0x657a697372646461], [0x6574756c6f736261]), ([0x65706f6373], [0x31]), ([0x666564], [0x3231322b3637312b373036]), ([0x6c6176], [0x324231367830]), ([0x676573], [0x30]), ([0x65707974], [0x62616c])],
  [([0x6469], [0x36303331]), ([0x656d616e], [0x2234345f656761705f36325f6b6369745f706f22]), ([0x657a697372646461], [0x6574756c6f736261]), ([0x65706f6373], [0x31]), ([0x666564], [0x3038352b3831322b373036]), ([0x6c6176], [0x383931367830]), ([0x676573], [0x30]), ([0x65707974], [0x62616c])],
  [([0x6469], [0x37303331]), ([0x656d616e], [0x2234345f656761705f34325f6b6369745f706f22]), ([0x657a697372646461], [0x6574756c6f736261]), ([0x65706f6373], [0x31]), ([0x666564], [0x3837362b333232312b373036]), ([0x6c6176], [0x313831367830]), ([0x676573], [0x30]), ([0x65707974], [0x62616c])],
  [([0x6469], [0x38303331]), ([0x656d616e], [0x2234345f656761705f32325f6b6369745f706f22]), ([0x657a697372646461], [0x6574756c6f736261]), ([0x65706f6373], [0x31]), ([0x666564], [0x323931312b373033312b373036]), ([0x6c6176], [0x413631367830]), ([0x676573], [0x30]), ([0x65707974], [0x62616c])],
  [([0x6469], [0x39303331]), ([0x656d616e], [0x2234345f656761705f30325f6b6369745f706f22]), ([0x657a697372646461], [0x6574756c6f736261]), ([0x65706f6373], [0x31]), ([0x666564], [0x32332b373732312b373036]), ([0x6c6176], [0x363531367830]), ([0x676573], [0x30]), ([0x65707974], [0x62616c])],
  [([0x6469], [0x30313331]), ([0x656d616e], [0x22444022]), ([0x657a697372646461], [0x6574756c6f736261]), ([0x746e65726170], [0x31313331]), ([0x666564], [0x3430352b38392b373036]), ([0x666572], [0x3730362b373036]), ([0x6c6176], [0x333531367830]), ([0x676573], [0x30]), ([0x65707974], [0x62616c])],
  [([0x6469], [0x31313331]), ([0x656d616e], [0x2234345f656761705f38315f6b6369745f706f22]), ([0x657a697372646461], [0x6574756c6f736261]), ([0x65706f6373], [0x31]), ([0x666564], [0x323032312b38392b373036]), ([0x6c6176], [0x323231367830]), ([0x676573], [0x30]), ([0x65707974], [0x62616c])]]

/-- player/iivision.dbg, sym lines 1312-1343 -/
def symLines41 : List (List (List Nat × List Nat)) := [
  [([0x6469], [0x32313331]), ([0x656d616e], [0x2234345f656761705f36315f6b6369745f706f22]), ([0x657a697372646461], [0x6574756c6f736261]), ([0x65706f6373], [0x31]), ([0x666564], [0x3032382b3332392b373036]), ([0x6c6176], [0x423031367830]), ([0x676573], [0x30]), ([0x65707974], [0x62616c])],
  [([0x6469], [0x33313331]), ([0x656d616e], [0x2234345f656761705f34315f6b6369745f706f22]), ([0x657a697372646461], [0x6574756c6f736261]), ([0x65706f6373], [0x31]), ([0x666564], [0x33312b3430332b373036]), ([0x6c6176], [0x424630367830]), ([0x676573], [0x30]), ([0x65707974], [0x62616c])],
  [([0x6469], [0x34313331]), ([0x656d616e], [0x2234345f656761705f32315f6b6369745f706f22]), ([0x657a697372646461], [0x6574756c6f736261]), ([0x65706f6373], [0x31]), ([0x666564], [0x3736372b383431312b373036]), ([0x6c6176], [0x414530367830]), ([0x676573], [0x30]), ([0x65707974], [0x62616c])],
  [([0x6469], [0x35313331]), ([0x656d616e], [0x2234345f656761705f30315f6b6369745f706f22]), ([0x657a697372646461], [0x6574756c6f736261]), ([0x65706f6373], [0x31]), ([0x666564], [0x3334392b3334372b373036]), ([0x6c6176], [0x444430367830]), ([0x676573], [0x30]), ([0x65707974], [0x62616c])],
  [([0x6469], [0x36313331]), ([0x656d616e], [0x2234345f656761705f385f6b6369745f706f22]), ([0x657a697372646461], [0x6574756c6f736261]), ([0x65706f6373], [0x31]), ([0x666564], [0x3132382b3037332b373036]), ([0x6c6176], [0x464330367830]), ([0x676573], [0x30]), ([0x65707974], [0x62616c])],
  [([0x6469], [0x37313331]), ([0x656d616e], [0x22385f6c6961745f34345f656761705f6b6369745f706f5f22]), ([0x657a697372646461], [0x6574756c6f736261]), ([0x65706f6373], [0x31]), ([0x666564], [0x3432312b3033362b3737352b373036]), ([0x6c6176], [0x394330367830]), ([0x676573], [0x30]), ([0x65707974], [0x62616c])],
  [([0x6469], [0x38313331]), ([0x656d616e], [0x2232315f6c6961745f34345f656761705f6b6369745f706f5f22]), ([0x657a697372646461], [0x6574756c6f736261]), ([0x65706f6373], [0x31]), ([0x666564], [0x3432312b383430312b3737352b373036]), ([0x666572], [0x373036]), ([0x6c6176], [0x364330367830]), ([0x676573], [0x30]), ([0x65707974], [0x62616c])],
  [([0x6469], [0x39313331]), ([0x656d616e], [0x22706d6a5f34345f656761705f365f6b6369745f706f5f22]), ([0x657a697372646461], [0x6574756c6f736261]), ([0x65706f6373], [0x31]), ([0x666564], [0x3735372b3737352b373036]), ([0x666572], [0x3730362b3730362b373036]), ([0x6c6176], [0x434330367830]), ([0x676573], [0x30]), ([0x65707974], [0x62616c])],
  [([0x6469], [0x30323331]), ([0x656d616e], [0x2236315f6c6961745f34345f656761705f6b6369745f706f5f22]), ([0x657a697372646461], [0x6574756c6f736261]), ([0x65706f6373], [0x31]), ([0x666564], [0x3432312b3837312b3737352b373036]), ([0x666572], [0x373036]), ([0x6c6176], [0x334330367830]), ([0x676573], [0x30]), ([0x65707974], [0x62616c])],
  [([0x6469], [0x31323331]), ([0x656d616e], [0x2230325f6c6961745f34345f656761705f6b6369745f706f5f22]), ([0x657a697372646461], [0x6574756c6f736261]), ([0x65706f6373], [0x31]), ([0x666564], [0x3432312b3238362b3737352b373036]), ([0x666572], [0x3730362b373036]), ([0x6c6176], [0x304330367830]), ([0x676573], [0x30]), ([0x65707974], [0x62616c])],
  [([0x6469], [0x32323331]), ([0x656d616e], [0x2235325f6c6961745f34345f656761705f6b6369745f706f5f22]), ([0x657a697372646461], [0x6574756c6f736261]), ([0x65706f6373], [0x31]), ([0x666564], [0x3432312b353431312b3737352b373036]), ([0x6c6176], [0x444230367830]), ([0x676573], [0x30]), ([0x65707974], [0x62616c])],
  [([0x6469], [0x33323331]), ([0x656d616e], [0x2239325f6c6961745f34345f656761705f6b6369745f706f5f22]), ([0x657a697372646461], [0x6574756c6f736261]), ([0x65706f6373], [0x31]), ([0x666564], [0x3432312b343632312b3737352b373036]), ([0x6c6176], [0x414230367830]), ([0x676573], [0x30]), ([0x65707974], [0x62616c])],
  [([0x6469], [0x34323331]), ([0x656d616e], [0x2234335f6c6961745f34345f656761705f6b6369745f706f5f22]), ([0x657a697372646461], [0x6574756c6f736261]), ([0x65706f6373], [0x31]), ([0x666564], [0x3432312b3538342b3737352b373036]), ([0x666572], [0x373036]), ([0x6c6176], [0x374230367830]), ([0x676573], [0x30]), ([0x65707974], [0x62616c])],
  [([0x6469], [0x35323331]), ([0x656d616e], [0x2238335f6c6961745f34345f656761705f6b6369745f706f5f22]), ([0x657a697372646461], [0x6574756c6f736261]), ([0x65706f6373], [0x31]), ([0x666564], [0x3432312b3435352b3737352b373036]), ([0x666572], [0x373036]), ([0x6c6176], [0x344230367830]), ([0x676573], [0x30]), ([0x65707974], [0x62616c])],
  [([0x6469], [0x36323331]), ([0x656d616e], [0x2233345f6c6961745f34345f656761705f6b6369745f706f5f22]), ([0x657a697372646461], [0x6574756c6f736261]), ([0x65706f6373], [0x31]), ([0x666564], [0x3432312b383433312b3737352b373036]), ([0x666572], [0x373036]), ([0x6c6176], [0x314230367830]), ([0x676573], [0x30]), ([0x65707974], [0x62616c])],
  [([0x6469], [0x37323331]), ([0x656d616e], [0x2237345f6c6961745f34345f656761705f6b6369745f706f5f22]), ([0x657a697372646461], [0x6574756c6f736261]), ([0x65706f6373], [0x31]), ([0x666564], [0x3432312b3637372b3737352b373036]), ([0x6c6176], [0x454130367830]), ([0x676573], [0x30]), ([0x65707974], [0x62616c])],
  [([0x6469], [0x38323331]), ([0x656d616e], [0x2232355f6c6961745f34345f656761705f6b6369745f706f5f22]), ([0x657a697372646461], [0x6574756c6f736261]), ([0x65706f6373], [0x31]), ([0x666564], [0x3432312b3137362b3737352b373036]), ([0x666572], [0x373036]), ([0x6c6176], [0x424130367830]), ([0x676573], [0x30]), ([0x65707974], [0x62616c])],
  [([0x6469], [0x39323331]), ([0x656d616e], [0x2236355f6c6961745f34345f656761705f6b6369745f706f5f22]), ([0x657a697372646461], [0x6574756c6f736261]), ([0x65706f6373], [0x31]), ([0x666564], [0x3432312b3839342b3737352b373036]), ([0x666572], [0x373036]), ([0x6c6176], [0x384130367830]), ([0x676573], [0x30]), ([0x65707974], [0x62616c])],
  [([0x6469], [0x30333331]), ([0x656d616e], [0x2230365f6c6961745f34345f656761705f6b6369745f706f5f22]), ([0x657a697372646461], [0x6574756c6f736261]), ([0x65706f6373], [0x31]), ([0x666564], [0x3432312b353632312b3737352b373036]), ([0x6c6176], [0x354130367830]), ([0x676573], [0x30]), ([0x65707974], [0x62616c])],
  [([0x6469], [0x31333331]), ([0x656d616e], [0x2234345f656761705f365f6b6369745f706f22]), ([0x657a697372646461], [0x6574756c6f736261]), ([0x65706f6373], [0x31]), ([0x666564], [0x3432382b3737352b373036]), ([0x6c6176], [0x433930367830]), ([0x676573], [0x30]), ([0x65707974], [0x62616c])],
  [([0x6469], [0x32333331]), ([0x656d616e], [0x22375f6c6961745f34345f656761705f6b6369745f706f5f22]), ([0x657a697372646461], [0x6574756c6f736261]), ([0x65706f6373], [0x31]), ([0x666564], [0x3432312b3330392b3337332b373036]), ([0x6c6176], [0x363930367830]), ([0x676573], [0x30]), ([0x65707974], [0x62616c])],
  [([0x6469], [0x33333331]), ([0x656d616e], [0x2231315f6c6961745f34345f656761705f6b6369745f706f5f22]), ([0x657a697372646461], [0x6574756c6f736261]), ([0x65706f6373], [0x31]), ([0x666564], [0x3432312b333732312b3337332b373036]), ([0x6c6176], [0x333930367830]), ([0x676573], [0x30]), ([0x65707974], [0x62616c])],
  [([0x6469], [0x34333331]), ([0x656d616e], [0x22706d6a5f34345f656761705f345f6b6369745f706f5f22]), ([0x657a697372646461], [0x6574756c6f736261]), ([0x65706f6373], [0x31]), ([0x666564], [0x3134322b3337332b373036]), ([0x666572], [0x3730362b373036]), ([0x6c6176], [0x393930367830]), ([0x676573], [0x30]), ([0x65707974], [0x62616c])],
  [([0x6469], [0x35333331]), ([0x656d616e], [0x2235315f6c6961745f34345f656761705f6b6369745f706f5f22]), ([0x657a697372646461], [0x6574756c6f736261]), ([0x65706f6373], [0x31]), ([0x666564], [0x3432312b3538352b3337332b373036]), ([0x666572], [0x373036]), ([0x6c6176], [0x303930367830]), ([0x676573], [0x30]), ([0x65707974], [0x62616c])],
  [([0x6469], [0x36333331]), ([0x656d616e], [0x2239315f6c6961745f34345f656761705f6b6369745f706f5f22]), ([0x657a697372646461], [0x6574756c6f736261]), ([0x65706f6373], [0x31]), ([0x666564], [0x3432312b3737322b3337332b373036]), ([0x666572], [0x373036]), ([0x6c6176], [0x443830367830]), ([0x676573], [0x30]), ([0x65707974], [0x62616c])],
  [([0x6469], [0x37333331]), ([0x656d616e], [0x2234325f6c6961745f34345f656761705f6b6369745f706f5f22]), ([0x657a697372646461], [0x6574756c6f736261]), ([0x65706f6373], [0x31]), ([0x666564], [0x3432312b3831352b3337332b373036]), ([0x666572], [0x3730362b373036]), ([0x6c6176], [0x413830367830]), ([0x676573], [0x30]), ([0x65707974], [0x62616c])],
  [([0x6469], [0x38333331]), ([0x656d616e], [0x2238325f6c6961745f34345f656761705f6b6369745f706f5f22]), ([0x657a697372646461], [0x6574756c6f736261]), ([0x65706f6373], [0x31]), ([0x666564], [0x3432312b3436312b3337332b373036]), ([0x666572], [0x373036]), ([0x6c6176], [0x373830367830]), ([0x676573], [0x30]), ([0x65707974], [0x62616c])],
  [([0x6469], [0x39333331]), ([0x656d616e], [0x2233335f6c6961745f34345f656761705f6b6369745f706f5f22]), ([0x657a697372646461], [0x6574756c6f736261]), ([0x65706f6373], [0x31]), ([0x666564], [0x3432312b3435312b3337332b373036]), ([0x666572], [0x373036]), ([0x6c6176], [0x343830367830]), ([0x676573], [0x30]), ([0x65707974], [0x62616c])],
  [([0x6469], [0x30343331]), ([0x656d616e], [0x2237335f6c6961745f34345f656761705f6b6369745f706f5f22]), ([0x657a697372646461], [0x6574756c6f736261]), ([0x65706f6373], [0x31]), ([0x666564], [0x3432312b373532312b3337332b373036]), ([0x666572], [0x373036]), ([0x6c6176], [0x313830367830]), ([0x676573], [0x30]), ([0x65707974], [0x62616c])],
  [([0x6469], [0x31343331]), ([0x656d616e], [0x2232345f6c6961745f34345f656761705f6b6369745f706f5f22]), ([0x657a697372646461], [0x6574756c6f736261]), ([0x65706f6373], [0x31]), ([0x666564], [0x3432312b323033312b3337332b373036]), ([0x666572], [0x3730362b373036]), ([0x6c6176], [0x453730367830]), ([0x676573], [0x30]), ([0x65707974], [0x62616c])],
  [([0x6469], [0x32343331]), ([0x656d616e], [0x2236345f6c6961745f34345f656761705f6b6369745f706f5f22]), ([0x657a697372646461], [0x6574756c6f736261]), ([0x65706f6373], [0x31]), ([0x666564], [0x3432312b3530382b3337332b373036]), ([0x666572], [0x373036]), ([0x6c6176], [0x423730367830]), ([0x676573], [0x30]), ([0x65707974], [0x62616c])],
  [([0x6469], [0x33343331]), ([0x656d616e], [0x2231355f6c6961745f34345f656761705f6b6369745f706f5f22]), ([0x657a697372646461], [0x6574756c6f736261]), ([0x65706f6373], [0x31]), ([0x666564], [0x3432312b343231312b3337332b373036]), ([0x666572], [0x373036]), ([0x6c6176], [0x383730367830]), ([0x676573], [0x30]), ([0x65707974], [0x62616c])]]

/-- player/iivision.dbg, sym lines 1344-1375 -/
def symLines42 : List (List (List Nat × List Nat)) := [
  [([0x6469], [0x34343331]), ([0x656d616e], [0x2235355f6c6961745f34345f656761705f6b6369745f706f5f22]), ([0x657a697372646461], [0x6574756c6f736261]), ([0x65706f6373], [0x31]), ([0x666564], [0x3432312b3332332b3337332b373036]), ([0x666572], [0x373036]), ([0x6c6176], [0x353730367830]), ([0x676573], [0x30]), ([0x65707974], [0x62616c])],
  [([0x6469], [0x35343331]), ([0x656d616e], [0x2239355f6c6961745f34345f656761705f6b6369745f706f5f22]), ([0x657a697372646461], [0x6574756c6f736261]), ([0x65706f6373], [0x31]), ([0x666564], [0x3432312b323431312b3337332b373036]), ([0x6c6176], [0x323730367830]), ([0x676573], [0x30]), ([0x65707974], [0x62616c])],
  [([0x6469], [0x36343331]), ([0x656d616e], [0x2234345f656761705f345f6b6369745f706f22]), ([0x657a697372646461], [0x6574756c6f736261]), ([0x65706f6373], [0x31]), ([0x666564], [0x323630312b3337332b373036]), ([0x6c6176], [0x383630367830]), ([0x676573], [0x30]), ([0x65707974], [0x62616c])],
  [([0x6469], [0x37343331]), ([0x656d616e], [0x22444022]), ([0x657a697372646461], [0x6574756c6f736261]), ([0x746e65726170], [0x38343331]), ([0x666564], [0x3435322b3833312b36393231]), ([0x666572], [0x363932312b36393231]), ([0x6c6176], [0x353630367830]), ([0x676573], [0x30]), ([0x65707974], [0x62616c])],
  [([0x6469], [0x38343331]), ([0x656d616e], [0x2233345f656761705f36365f6b6369745f706f22]), ([0x657a697372646461], [0x6574756c6f736261]), ([0x65706f6373], [0x31]), ([0x666564], [0x3739362b3833312b36393231]), ([0x6c6176], [0x343330367830]), ([0x676573], [0x30]), ([0x65707974], [0x62616c])],
  [([0x6469], [0x39343331]), ([0x656d616e], [0x22444022]), ([0x657a697372646461], [0x6574756c6f736261]), ([0x746e65726170], [0x30353331]), ([0x666564], [0x3030372b313030312b36393231]), ([0x666572], [0x363932312b36393231]), ([0x6c6176], [0x313330367830]), ([0x676573], [0x30]), ([0x65707974], [0x62616c])],
  [([0x6469], [0x30353331]), ([0x656d616e], [0x2233345f656761705f34365f6b6369745f706f22]), ([0x657a697372646461], [0x6574756c6f736261]), ([0x65706f6373], [0x31]), ([0x666564], [0x3937392b313030312b36393231]), ([0x6c6176], [0x303030367830]), ([0x676573], [0x30]), ([0x65707974], [0x62616c])],
  [([0x6469], [0x31353331]), ([0x656d616e], [0x22444022]), ([0x657a697372646461], [0x6574756c6f736261]), ([0x746e65726170], [0x32353331]), ([0x666564], [0x3033382b3436362b36393231]), ([0x666572], [0x363932312b36393231]), ([0x6c6176], [0x444646357830]), ([0x676573], [0x30]), ([0x65707974], [0x62616c])],
  [([0x6469], [0x32353331]), ([0x656d616e], [0x2233345f656761705f32365f6b6369745f706f22]), ([0x657a697372646461], [0x6574756c6f736261]), ([0x65706f6373], [0x31]), ([0x666564], [0x3236322b3436362b36393231]), ([0x6c6176], [0x434346357830]), ([0x676573], [0x30]), ([0x65707974], [0x62616c])],
  [([0x6469], [0x33353331]), ([0x656d616e], [0x22444022]), ([0x657a697372646461], [0x6574756c6f736261]), ([0x746e65726170], [0x34353331]), ([0x666564], [0x3332382b3937372b36393231]), ([0x666572], [0x363932312b36393231]), ([0x6c6176], [0x394346357830]), ([0x676573], [0x30]), ([0x65707974], [0x62616c])],
  [([0x6469], [0x34353331]), ([0x656d616e], [0x2233345f656761705f30365f6b6369745f706f22]), ([0x657a697372646461], [0x6574756c6f736261]), ([0x65706f6373], [0x31]), ([0x666564], [0x3532372b3937372b36393231]), ([0x6c6176], [0x383946357830]), ([0x676573], [0x30]), ([0x65707974], [0x62616c])],
  [([0x6469], [0x35353331]), ([0x656d616e], [0x22444022]), ([0x657a697372646461], [0x6574756c6f736261]), ([0x746e65726170], [0x36353331]), ([0x666564], [0x383831312b3031352b36393231]), ([0x666572], [0x363932312b36393231]), ([0x6c6176], [0x353946357830]), ([0x676573], [0x30]), ([0x65707974], [0x62616c])],
  [([0x6469], [0x36353331]), ([0x656d616e], [0x2233345f656761705f38355f6b6369745f706f22]), ([0x657a697372646461], [0x6574756c6f736261]), ([0x65706f6373], [0x31]), ([0x666564], [0x3638392b3031352b36393231]), ([0x6c6176], [0x343646357830]), ([0x676573], [0x30]), ([0x65707974], [0x62616c])],
  [([0x6469], [0x37353331]), ([0x656d616e], [0x22444022]), ([0x657a697372646461], [0x6574756c6f736261]), ([0x746e65726170], [0x38353331]), ([0x666564], [0x3130382b3430372b36393231]), ([0x666572], [0x363932312b36393231]), ([0x6c6176], [0x313646357830]), ([0x676573], [0x30]), ([0x65707974], [0x62616c])],
  [([0x6469], [0x38353331]), ([0x656d616e], [0x2233345f656761705f36355f6b6369745f706f22]), ([0x657a697372646461], [0x6574756c6f736261]), ([0x65706f6373], [0x31]), ([0x666564], [0x363832312b3430372b36393231]), ([0x6c6176], [0x303346357830]), ([0x676573], [0x30]), ([0x65707974], [0x62616c])],
  [([0x6469], [0x39353331]), ([0x656d616e], [0x22444022]), ([0x657a697372646461], [0x6574756c6f736261]), ([0x746e65726170], [0x30363331]), ([0x666564], [0x323230312b3132362b36393231]), ([0x666572], [0x363932312b36393231]), ([0x6c6176], [0x443246357830]), ([0x676573], [0x30]), ([0x65707974], [0x62616c])],
  [([0x6469], [0x30363331]), ([0x656d616e], [0x2233345f656761705f34355f6b6369745f706f22]), ([0x657a697372646461], [0x6574756c6f736261]), ([0x65706f6373], [0x31]), ([0x666564], [0x313032312b3132362b36393231]), ([0x6c6176], [0x434645357830]), ([0x676573], [0x30]), ([0x65707974], [0x62616c])],
  [([0x6469], [0x31363331]), ([0x656d616e], [0x2233345f656761705f32355f6b6369745f706f22]), ([0x657a697372646461], [0x6574756c6f736261]), ([0x65706f6373], [0x31]), ([0x666564], [0x3335312b3438382b36393231]), ([0x6c6176], [0x314445357830]), ([0x676573], [0x30]), ([0x65707974], [0x62616c])],
  [([0x6469], [0x32363331]), ([0x656d616e], [0x2233345f656761705f30355f6b6369745f706f22]), ([0x657a697372646461], [0x6574756c6f736261]), ([0x65706f6373], [0x31]), ([0x666564], [0x3236392b3431312b36393231]), ([0x6c6176], [0x394145357830]), ([0x676573], [0x30]), ([0x65707974], [0x62616c])],
  [([0x6469], [0x33363331]), ([0x656d616e], [0x2233345f656761705f38345f6b6369745f706f22]), ([0x657a697372646461], [0x6574756c6f736261]), ([0x65706f6373], [0x31]), ([0x666564], [0x3933342b363230312b36393231]), ([0x6c6176], [0x303845357830]), ([0x676573], [0x30]), ([0x65707974], [0x62616c])],
  [([0x6469], [0x34363331]), ([0x656d616e], [0x2233345f656761705f36345f6b6369745f706f22]), ([0x657a697372646461], [0x6574756c6f736261]), ([0x65706f6373], [0x31]), ([0x666564], [0x343430312b3734362b36393231]), ([0x6c6176], [0x423545357830]), ([0x676573], [0x30]), ([0x65707974], [0x62616c])],
  [([0x6469], [0x35363331]), ([0x656d616e], [0x2233345f656761705f34345f6b6369745f706f22]), ([0x657a697372646461], [0x6574756c6f736261]), ([0x65706f6373], [0x31]), ([0x666564], [0x3634352b3836322b36393231]), ([0x6c6176], [0x353345357830]), ([0x676573], [0x30]), ([0x65707974], [0x62616c])],
  [([0x6469], [0x36363331]), ([0x656d616e], [0x2233345f656761705f32345f6b6369745f706f22]), ([0x657a697372646461], [0x6574756c6f736261]), ([0x65706f6373], [0x31]), ([0x666564], [0x37362b32362b36393231]), ([0x6c6176], [0x323145357830]), ([0x676573], [0x30]), ([0x65707974], [0x62616c])],
  [([0x6469], [0x37363331]), ([0x656d616e], [0x2233345f656761705f30345f6b6369745f706f22]), ([0x657a697372646461], [0x6574756c6f736261]), ([0x65706f6373], [0x31]), ([0x666564], [0x323232312b343131312b36393231]), ([0x6c6176], [0x464544357830]), ([0x676573], [0x30]), ([0x65707974], [0x62616c])],
  [([0x6469], [0x38363331]), ([0x656d616e], [0x2233345f656761705f38335f6b6369745f706f22]), ([0x657a697372646461], [0x6574756c6f736261]), ([0x65706f6373], [0x31]), ([0x666564], [0x353633312b3930362b36393231]), ([0x6c6176], [0x464344357830]), ([0x676573], [0x30]), ([0x65707974], [0x62616c])],
  [([0x6469], [0x39363331]), ([0x656d616e], [0x22444022]), ([0x657a697372646461], [0x6574756c6f736261]), ([0x746e65726170], [0x30373331]), ([0x666564], [0x333932312b363332312b36393231]), ([0x666572], [0x363932312b36393231]), ([0x6c6176], [0x434344357830]), ([0x676573], [0x30]), ([0x65707974], [0x62616c])],
  [([0x6469], [0x30373331]), ([0x656d616e], [0x2233345f656761705f36335f6b6369745f706f22]), ([0x657a697372646461], [0x6574756c6f736261]), ([0x65706f6373], [0x31]), ([0x666564], [0x3036382b363332312b36393231]), ([0x6c6176], [0x423944357830]), ([0x676573], [0x30]), ([0x65707974], [0x62616c])],
  [([0x6469], [0x31373331]), ([0x656d616e], [0x2233345f656761705f34335f6b6369745f706f22]), ([0x657a697372646461], [0x6574756c6f736261]), ([0x65706f6373], [0x31]), ([0x666564], [0x343030312b363330312b36393231]), ([0x6c6176], [0x353744357830]), ([0x676573], [0x30]), ([0x65707974], [0x62616c])],
  [([0x6469], [0x32373331]), ([0x656d616e], [0x2233345f656761705f32335f6b6369745f706f22]), ([0x657a697372646461], [0x6574756c6f736261]), ([0x65706f6373], [0x31]), ([0x666564], [0x3234362b393230312b36393231]), ([0x6c6176], [0x393544357830]), ([0x676573], [0x30]), ([0x65707974], [0x62616c])],
  [([0x6469], [0x33373331]), ([0x656d616e], [0x2233345f656761705f30335f6b6369745f706f22]), ([0x657a697372646461], [0x6574756c6f736261]), ([0x65706f6373], [0x31]), ([0x666564], [0x373330312b373130312b36393231]), ([0x6c6176], [0x433344357830]), ([0x676573], [0x30]), ([0x65707974], [0x62616c])],
  [([0x6469], [0x34373331]), ([0x656d616e], [0x2233345f656761705f38325f6b6369745f706f22]), ([0x657a697372646461], [0x6574756c6f736261]), ([0x65706f6373], [0x31]), ([0x666564], [0x3231322b3637312b36393231]), ([0x6c6176], [0x333244357830]), ([0x676573], [0x30]), ([0x65707974], [0x62616c])],
  [([0x6469], [0x35373331]), ([0x656d616e], [0x2233345f656761705f36325f6b6369745f706f22]), ([0x657a697372646461], [0x6574756c6f736261]), ([0x65706f6373], [0x31]), ([0x666564], [0x3038352b3831322b36393231]), ([0x6c6176], [0x393044357830]), ([0x676573], [0x30]), ([0x65707974], [0x62616c])]]

/-- player/iivision.dbg, sym lines 1376-1407 -/
def symLines43 : List (List (List Nat × List Nat)) := [
  [([0x6469], [0x36373331]), ([0x656d616e], [0x2233345f656761705f34325f6b6369745f706f22]), ([0x657a697372646461], [0x6574756c6f736261]), ([0x65706f6373], [0x31]), ([0x666564], [0x3837362b333232312b36393231]), ([0x6c6176], [0x324643357830]), ([0x676573], [0x30]), ([0x65707974], [0x62616c])],
  [([0x6469], [0x37373331]), ([0x656d616e], [0x2233345f656761705f32325f6b6369745f706f22]), ([0x657a697372646461], [0x6574756c6f736261]), ([0x65706f6373], [0x31]), ([0x666564], [0x323931312b373033312b36393231]), ([0x6c6176], [0x424443357830]), ([0x676573], [0x30]), ([0x65707974], [0x62616c])],
  [([0x6469], [0x38373331]), ([0x656d616e], [0x2233345f656761705f30325f6b6369745f706f22]), ([0x657a697372646461], [0x6574756c6f736261]), ([0x65706f6373], [0x31]), ([0x666564], [0x32332b373732312b36393231]), ([0x6c6176], [0x374343357830]), ([0x676573], [0x30]), ([0x65707974], [0x62616c])],
  [([0x6469], [0x39373331]), ([0x656d616e], [0x22444022]), ([0x657a697372646461], [0x6574756c6f736261]), ([0x746e65726170], [0x30383331]), ([0x666564], [0x3430352b38392b36393231]), ([0x666572], [0x363932312b36393231]), ([0x6c6176], [0x344343357830]), ([0x676573], [0x30]), ([0x65707974], [0x62616c])],
  [([0x6469], [0x30383331]), ([0x656d616e], [0x2233345f656761705f38315f6b6369745f706f22]), ([0x657a697372646461], [0x6574756c6f736261]), ([0x65706f6373], [0x31]), ([0x666564], [0x323032312b38392b36393231]), ([0x6c6176], [0x333943357830]), ([0x676573], [0x30]), ([0x65707974], [0x62616c])],
  [([0x6469], [0x31383331]), ([0x656d616e], [0x2233345f656761705f36315f6b6369745f706f22]), ([0x657a697372646461], [0x6574756c6f736261]), ([0x65706f6373], [0x31]), ([0x666564], [0x3032382b3332392b36393231]), ([0x6c6176], [0x433743357830]), ([0x676573], [0x30]), ([0x65707974], [0x62616c])],
  [([0x6469], [0x32383331]), ([0x656d616e], [0x2233345f656761705f34315f6b6369745f706f22]), ([0x657a697372646461], [0x6574756c6f736261]), ([0x65706f6373], [0x31]), ([0x666564], [0x33312b3430332b36393231]), ([0x6c6176], [0x433643357830]), ([0x676573], [0x30]), ([0x65707974], [0x62616c])],
  [([0x6469], [0x33383331]), ([0x656d616e], [0x2233345f656761705f32315f6b6369745f706f22]), ([0x657a697372646461], [0x6574756c6f736261]), ([0x65706f6373], [0x31]), ([0x666564], [0x3736372b383431312b36393231]), ([0x6c6176], [0x423543357830]), ([0x676573], [0x30]), ([0x65707974], [0x62616c])],
  [([0x6469], [0x34383331]), ([0x656d616e], [0x2233345f656761705f30315f6b6369745f706f22]), ([0x657a697372646461], [0x6574756c6f736261]), ([0x65706f6373], [0x31]), ([0x666564], [0x3334392b3334372b36393231]), ([0x6c6176], [0x453443357830]), ([0x676573], [0x30]), ([0x65707974], [0x62616c])],
  [([0x6469], [0x35383331]), ([0x656d616e], [0x2233345f656761705f385f6b6369745f706f22]), ([0x657a697372646461], [0x6574756c6f736261]), ([0x65706f6373], [0x31]), ([0x666564], [0x3132382b3037332b36393231]), ([0x6c6176], [0x303443357830]), ([0x676573], [0x30]), ([0x65707974], [0x62616c])],
  [([0x6469], [0x36383331]), ([0x656d616e], [0x22385f6c6961745f33345f656761705f6b6369745f706f5f22]), ([0x657a697372646461], [0x6574756c6f736261]), ([0x65706f6373], [0x31]), ([0x666564], [0x3432312b3033362b3737352b36393231]), ([0x6c6176], [0x413343357830]), ([0x676573], [0x30]), ([0x65707974], [0x62616c])],
  [([0x6469], [0x37383331]), ([0x656d616e], [0x2232315f6c6961745f33345f656761705f6b6369745f706f5f22]), ([0x657a697372646461], [0x6574756c6f736261]), ([0x65706f6373], [0x31]), ([0x666564], [0x3432312b383430312b3737352b36393231]), ([0x666572], [0x36393231]), ([0x6c6176], [0x373343357830]), ([0x676573], [0x30]), ([0x65707974], [0x62616c])],
  [([0x6469], [0x38383331]), ([0x656d616e], [0x22706d6a5f33345f656761705f365f6b6369745f706f5f22]), ([0x657a697372646461], [0x6574756c6f736261]), ([0x65706f6373], [0x31]), ([0x666564], [0x3735372b3737352b36393231]), ([0x666572], [0x363932312b363932312b36393231]), ([0x6c6176], [0x443343357830]), ([0x676573], [0x30]), ([0x65707974], [0x62616c])],
  [([0x6469], [0x39383331]), ([0x656d616e], [0x2236315f6c6961745f33345f656761705f6b6369745f706f5f22]), ([0x657a697372646461], [0x6574756c6f736261]), ([0x65706f6373], [0x31]), ([0x666564], [0x3432312b3837312b3737352b36393231]), ([0x666572], [0x36393231]), ([0x6c6176], [0x343343357830]), ([0x676573], [0x30]), ([0x65707974], [0x62616c])],
  [([0x6469], [0x30393331]), ([0x656d616e], [0x2230325f6c6961745f33345f656761705f6b6369745f706f5f22]), ([0x657a697372646461], [0x6574756c6f736261]), ([0x65706f6373], [0x31]), ([0x666564], [0x3432312b3238362b3737352b36393231]), ([0x666572], [0x363932312b36393231]), ([0x6c6176], [0x313343357830]), ([0x676573], [0x30]), ([0x65707974], [0x62616c])],
  [([0x6469], [0x31393331]), ([0x656d616e], [0x2235325f6c6961745f33345f656761705f6b6369745f706f5f22]), ([0x657a697372646461], [0x6574756c6f736261]), ([0x65706f6373], [0x31]), ([0x666564], [0x3432312b353431312b3737352b36393231]), ([0x6c6176], [0x453243357830]), ([0x676573], [0x30]), ([0x65707974], [0x62616c])],
  [([0x6469], [0x32393331]), ([0x656d616e], [0x2239325f6c6961745f33345f656761705f6b6369745f706f5f22]), ([0x657a697372646461], [0x6574756c6f736261]), ([0x65706f6373], [0x31]), ([0x666564], [0x3432312b343632312b3737352b36393231]), ([0x6c6176], [0x423243357830]), ([0x676573], [0x30]), ([0x65707974], [0x62616c])],
  [([0x6469], [0x33393331]), ([0x656d616e], [0x2234335f6c6961745f33345f656761705f6b6369745f706f5f22]), ([0x657a697372646461], [0x6574756c6f736261]), ([0x65706f6373], [0x31]), ([0x666564], [0x3432312b3538342b3737352b36393231]), ([0x666572], [0x36393231]), ([0x6c6176], [0x383243357830]), ([0x676573], [0x30]), ([0x65707974], [0x62616c])],
  [([0x6469], [0x34393331]), ([0x656d616e], [0x2238335f6c6961745f33345f656761705f6b6369745f706f5f22]), ([0x657a697372646461], [0x6574756c6f736261]), ([0x65706f6373], [0x31]), ([0x666564], [0x3432312b3435352b3737352b36393231]), ([0x666572], [0x36393231]), ([0x6c6176], [0x353243357830]), ([0x676573], [0x30]), ([0x65707974], [0x62616c])],
  [([0x6469], [0x35393331]), ([0x656d616e], [0x2233345f6c6961745f33345f656761705f6b6369745f706f5f22]), ([0x657a697372646461], [0x6574756c6f736261]), ([0x65706f6373], [0x31]), ([0x666564], [0x3432312b383433312b3737352b36393231]), ([0x666572], [0x36393231]), ([0x6c6176], [0x323243357830]), ([0x676573], [0x30]), ([0x65707974], [0x62616c])],
  [([0x6469], [0x36393331]), ([0x656d616e], [0x2237345f6c6961745f33345f656761705f6b6369745f706f5f22]), ([0x657a697372646461], [0x6574756c6f736261]), ([0x65706f6373], [0x31]), ([0x666564], [0x3432312b3637372b3737352b36393231]), ([0x6c6176], [0x463143357830]), ([0x676573], [0x30]), ([0x65707974], [0x62616c])],
  [([0x6469], [0x37393331]), ([0x656d616e], [0x2232355f6c6961745f33345f656761705f6b6369745f706f5f22]), ([0x657a697372646461], [0x6574756c6f736261]), ([0x65706f6373], [0x31]), ([0x666564], [0x3432312b3137362b3737352b36393231]), ([0x666572], [0x36393231]), ([0x6c6176], [0x433143357830]), ([0x676573], [0x30]), ([0x65707974], [0x62616c])],
  [([0x6469], [0x38393331]), ([0x656d616e], [0x2236355f6c6961745f33345f656761705f6b6369745f706f5f22]), ([0x657a697372646461], [0x6574756c6f736261]), ([0x65706f6373], [0x31]), ([0x666564], [0x3432312b3839342b3737352b36393231]), ([0x666572], [0x36393231]), ([0x6c6176], [0x393143357830]), ([0x676573], [0x30]), ([0x65707974], [0x62616c])],
  [([0x6469], [0x39393331]), ([0x656d616e], [0x2230365f6c6961745f33345f656761705f6b6369745f706f5f22]), ([0x657a697372646461], [0x6574756c6f736261]), ([0x65706f6373], [0x31]), ([0x666564], [0x3432312b353632312b3737352b36393231]), ([0x6c6176], [0x363143357830]), ([0x676573], [0x30]), ([0x65707974], [0x62616c])],
  [([0x6469], [0x30303431]), ([0x656d616e], [0x2233345f656761705f365f6b6369745f706f22]), ([0x657a697372646461], [0x6574756c6f736261]), ([0x65706f6373], [0x31]), ([0x666564], [0x3432382b3737352b36393231]), ([0x6c6176], [0x443043357830]), ([0x676573], [0x30]), ([0x65707974], [0x62616c])],
  [([0x6469], [0x31303431]), ([0x656d616e], [0x22375f6c6961745f33345f656761705f6b6369745f706f5f22]), ([0x657a697372646461], [0x6574756c6f736261]), ([0x65706f6373], [0x31]), ([0x666564], [0x3432312b3330392b3337332b36393231]), ([0x6c6176], [0x373043357830]), ([0x676573], [0x30]), ([0x65707974], [0x62616c])],
  [([0x6469], [0x32303431]), ([0x656d616e], [0x2231315f6c6961745f33345f656761705f6b6369745f706f5f22]), ([0x657a697372646461], [0x6574756c6f736261]), ([0x65706f6373], [0x31]), ([0x666564], [0x3432312b333732312b3337332b36393231]), ([0x6c6176], [0x343043357830]), ([0x676573], [0x30]), ([0x65707974], [0x62616c])],
  [([0x6469], [0x33303431]), ([0x656d616e], [0x22706d6a5f33345f656761705f345f6b6369745f706f5f22]), ([0x657a697372646461], [0x6574756c6f736261]), ([0x65706f6373], [0x31]), ([0x666564], [0x3134322b3337332b36393231]), ([0x666572], [0x363932312b36393231]), ([0x6c6176], [0x413043357830]), ([0x676573], [0x30]), ([0x65707974], [0x62616c])],
  [([0x6469], [0x34303431]), ([0x656d616e], [0x2235315f6c6961745f33345f656761705f6b6369745f706f5f22]), ([0x657a697372646461], [0x6574756c6f736261]), ([0x65706f6373], [0x31]), ([0x666564], [0x3432312b3538352b3337332b36393231]), ([0x666572], [0x36393231]), ([0x6c6176], [0x313043357830]), ([0x676573], [0x30]), ([0x65707974], [0x62616c])],
  [([0x6469], [0x35303431]), ([0x656d616e], [0x2239315f6c6961745f33345f656761705f6b6369745f706f5f22]), ([0x657a697372646461], [0x6574756c6f736261]), ([0x65706f6373], [0x31]), ([0x666564], [0x3432312b3737322b3337332b36393231]), ([0x666572], [0x36393231]), ([0x6c6176], [0x454642357830]), ([0x676573], [0x30]), ([0x65707974], [0x62616c])],
  [([0x6469], [0x36303431]), ([0x656d616e], [0x2234325f6c6961745f33345f656761705f6b6369745f706f5f22]), ([0x657a697372646461], [0x6574756c6f736261]), ([0x65706f6373], [0x31]), ([0x666564], [0x3432312b3831352b3337332b36393231]), ([0x666572], [0x363932312b36393231]), ([0x6c6176], [0x424642357830]), ([0x676573], [0x30]), ([0x65707974], [0x62616c])],
  [([0x6469], [0x37303431]), ([0x656d616e], [0x2238325f6c6961745f33345f656761705f6b6369745f706f5f22]), ([0x657a697372646461], [0x6574756c6f736261]), ([0x65706f6373], [0x31]), ([0x666564], [0x3432312b3436312b3337332b36393231]), ([0x666572], [0x36393231]), ([0x6c6176], [0x384642357830]), ([0x676573], [0x30]), ([0x65707974], [0x62616c])]]

/-- player/iivision.dbg, sym lines 1408-1439 -/
def symLines44 : List (List (List Nat × List Nat)) := [
  [([0x6469], [0x38303431]), ([0x656d616e], [0x2233335f6c6961745f33345f656761705f6b6369745f706f5f22]), ([0x657a697372646461], [0x6574756c6f736261]), ([0x65706f6373], [0x31]), ([0x666564], [0x3432312b3435312b3337332b36393231]), ([0x666572], [0x36393231]), ([0x6c6176], [0x354642357830]), ([0x676573], [0x30]), ([0x65707974], [0x62616c])],
  [([0x6469], [0x39303431]), ([0x656d616e], [0x2237335f6c6961745f33345f656761705f6b6369745f706f5f22]), ([0x657a697372646461], [0x6574756c6f736261]), ([0x65706f6373], [0x31]), ([0x666564], [0x3432312b373532312b3337332b36393231]), ([0x666572], [0x36393231]), ([0x6c6176], [0x324642357830]), ([0x676573], [0x30]), ([0x65707974], [0x62616c])],
  [([0x6469], [0x30313431]), ([0x656d616e], [0x2232345f6c6961745f33345f656761705f6b6369745f706f5f22]), ([0x657a697372646461], [0x6574756c6f736261]), ([0x65706f6373], [0x31]), ([0x666564], [0x3432312b323033312b3337332b36393231]), ([0x666572], [0x363932312b36393231]), ([0x6c6176], [0x464542357830]), ([0x676573], [0x30]), ([0x65707974], [0x62616c])],
  [([0x6469], [0x31313431]), ([0x656d616e], [0x2236345f6c6961745f33345f656761705f6b6369745f706f5f22]), ([0x657a697372646461], [0x6574756c6f736261]), ([0x65706f6373], [0x31]), ([0x666564], [0x3432312b3530382b3337332b36393231]), ([0x666572], [0x36393231]), ([0x6c6176], [0x434542357830]), ([0x676573], [0x30]), ([0x65707974], [0x62616c])],
  [([0x6469], [0x32313431]), ([0x656d616e], [0x2231355f6c6961745f33345f656761705f6b6369745f706f5f22]), ([0x657a697372646461], [0x6574756c6f736261]), ([0x65706f6373], [0x31]), ([0x666564], [0x3432312b343231312b3337332b36393231]), ([0x666572], [0x36393231]), ([0x6c6176], [0x394542357830]), ([0x676573], [0x30]), ([0x65707974], [0x62616c])],
  [([0x6469], [0x33313431]), ([0x656d616e], [0x2235355f6c6961745f33345f656761705f6b6369745f706f5f22]), ([0x657a697372646461], [0x6574756c6f736261]), ([0x65706f6373], [0x31]), ([0x666564], [0x3432312b3332332b3337332b36393231]), ([0x666572], [0x36393231]), ([0x6c6176], [0x364542357830]), ([0x676573], [0x30]), ([0x65707974], [0x62616c])],
  [([0x6469], [0x34313431]), ([0x656d616e], [0x2239355f6c6961745f33345f656761705f6b6369745f706f5f22]), ([0x657a697372646461], [0x6574756c6f736261]), ([0x65706f6373], [0x31]), ([0x666564], [0x3432312b323431312b3337332b36393231]), ([0x6c6176], [0x334542357830]), ([0x676573], [0x30]), ([0x65707974], [0x62616c])],
  [([0x6469], [0x35313431]), ([0x656d616e], [0x2233345f656761705f345f6b6369745f706f22]), ([0x657a697372646461], [0x6574756c6f736261]), ([0x65706f6373], [0x31]), ([0x666564], [0x323630312b3337332b36393231]), ([0x6c6176], [0x394442357830]), ([0x676573], [0x30]), ([0x65707974], [0x62616c])],
  [([0x6469], [0x36313431]), ([0x656d616e], [0x22444022]), ([0x657a697372646461], [0x6574756c6f736261]), ([0x746e65726170], [0x37313431]), ([0x666564], [0x3435322b3833312b353738]), ([0x666572], [0x3537382b353738]), ([0x6c6176], [0x364442357830]), ([0x676573], [0x30]), ([0x65707974], [0x62616c])],
  [([0x6469], [0x37313431]), ([0x656d616e], [0x2232345f656761705f36365f6b6369745f706f22]), ([0x657a697372646461], [0x6574756c6f736261]), ([0x65706f6373], [0x31]), ([0x666564], [0x3739362b3833312b353738]), ([0x6c6176], [0x354142357830]), ([0x676573], [0x30]), ([0x65707974], [0x62616c])],
  [([0x6469], [0x38313431]), ([0x656d616e], [0x22444022]), ([0x657a697372646461], [0x6574756c6f736261]), ([0x746e65726170], [0x39313431]), ([0x666564], [0x3030372b313030312b353738]), ([0x666572], [0x3537382b353738]), ([0x6c6176], [0x324142357830]), ([0x676573], [0x30]), ([0x65707974], [0x62616c])],
  [([0x6469], [0x39313431]), ([0x656d616e], [0x2232345f656761705f34365f6b6369745f706f22]), ([0x657a697372646461], [0x6574756c6f736261]), ([0x65706f6373], [0x31]), ([0x666564], [0x3937392b313030312b353738]), ([0x6c6176], [0x313742357830]), ([0x676573], [0x30]), ([0x65707974], [0x62616c])],
  [([0x6469], [0x30323431]), ([0x656d616e], [0x22444022]), ([0x657a697372646461], [0x6574756c6f736261]), ([0x746e65726170], [0x31323431]), ([0x666564], [0x3033382b3436362b353738]), ([0x666572], [0x3537382b353738]), ([0x6c6176], [0x453642357830]), ([0x676573], [0x30]), ([0x65707974], [0x62616c])],
  [([0x6469], [0x31323431]), ([0x656d616e], [0x2232345f656761705f32365f6b6369745f706f22]), ([0x657a697372646461], [0x6574756c6f736261]), ([0x65706f6373], [0x31]), ([0x666564], [0x3236322b3436362b353738]), ([0x6c6176], [0x443342357830]), ([0x676573], [0x30]), ([0x65707974], [0x62616c])],
  [([0x6469], [0x32323431]), ([0x656d616e], [0x22444022]), ([0x657a697372646461], [0x6574756c6f736261]), ([0x746e65726170], [0x33323431]), ([0x666564], [0x3332382b3937372b353738]), ([0x666572], [0x3537382b353738]), ([0x6c6176], [0x413342357830]), ([0x676573], [0x30]), ([0x65707974], [0x62616c])],
  [([0x6469], [0x33323431]), ([0x656d616e], [0x2232345f656761705f30365f6b6369745f706f22]), ([0x657a697372646461], [0x6574756c6f736261]), ([0x65706f6373], [0x31]), ([0x666564], [0x3532372b3937372b353738]), ([0x6c6176], [0x393042357830]), ([0x676573], [0x30]), ([0x65707974], [0x62616c])],
  [([0x6469], [0x34323431]), ([0x656d616e], [0x22444022]), ([0x657a697372646461], [0x6574756c6f736261]), ([0x746e65726170], [0x35323431]), ([0x666564], [0x383831312b3031352b353738]), ([0x666572], [0x3537382b353738]), ([0x6c6176], [0x363042357830]), ([0x676573], [0x30]), ([0x65707974], [0x62616c])],
  [([0x6469], [0x35323431]), ([0x656d616e], [0x2232345f656761705f38355f6b6369745f706f22]), ([0x657a697372646461], [0x6574756c6f736261]), ([0x65706f6373], [0x31]), ([0x666564], [0x3638392b3031352b353738]), ([0x6c6176], [0x354441357830]), ([0x676573], [0x30]), ([0x65707974], [0x62616c])],
  [([0x6469], [0x36323431]), ([0x656d616e], [0x22444022]), ([0x657a697372646461], [0x6574756c6f736261]), ([0x746e65726170], [0x37323431]), ([0x666564], [0x3130382b3430372b353738]), ([0x666572], [0x3537382b353738]), ([0x6c6176], [0x324441357830]), ([0x676573], [0x30]), ([0x65707974], [0x62616c])],
  [([0x6469], [0x37323431]), ([0x656d616e], [0x2232345f656761705f36355f6b6369745f706f22]), ([0x657a697372646461], [0x6574756c6f736261]), ([0x65706f6373], [0x31]), ([0x666564], [0x363832312b3430372b353738]), ([0x6c6176], [0x314141357830]), ([0x676573], [0x30]), ([0x65707974], [0x62616c])],
  [([0x6469], [0x38323431]), ([0x656d616e], [0x22444022]), ([0x657a697372646461], [0x6574756c6f736261]), ([0x746e65726170], [0x39323431]), ([0x666564], [0x323230312b3132362b353738]), ([0x666572], [0x3537382b353738]), ([0x6c6176], [0x453941357830]), ([0x676573], [0x30]), ([0x65707974], [0x62616c])],
  [([0x6469], [0x39323431]), ([0x656d616e], [0x2232345f656761705f34355f6b6369745f706f22]), ([0x657a697372646461], [0x6574756c6f736261]), ([0x65706f6373], [0x31]), ([0x666564], [0x313032312b3132362b353738]), ([0x6c6176], [0x443641357830]), ([0x676573], [0x30]), ([0x65707974], [0x62616c])],
  [([0x6469], [0x30333431]), ([0x656d616e], [0x2232345f656761705f32355f6b6369745f706f22]), ([0x657a697372646461], [0x6574756c6f736261]), ([0x65706f6373], [0x31]), ([0x666564], [0x3335312b3438382b353738]), ([0x6c6176], [0x323441357830]), ([0x676573], [0x30]), ([0x65707974], [0x62616c])],
  [([0x6469], [0x31333431]), ([0x656d616e], [0x2232345f656761705f30355f6b6369745f706f22]), ([0x657a697372646461], [0x6574756c6f736261]), ([0x65706f6373], [0x31]), ([0x666564], [0x3236392b3431312b353738]), ([0x6c6176], [0x413141357830]), ([0x676573], [0x30]), ([0x65707974], [0x62616c])],
  [([0x6469], [0x32333431]), ([0x656d616e], [0x2232345f656761705f38345f6b6369745f706f22]), ([0x657a697372646461], [0x6574756c6f736261]), ([0x65706f6373], [0x31]), ([0x666564], [0x3933342b363230312b353738]), ([0x6c6176], [0x314639357830]), ([0x676573], [0x30]), ([0x65707974], [0x62616c])],
  [([0x6469], [0x33333431]), ([0x656d616e], [0x2232345f656761705f36345f6b6369745f706f22]), ([0x657a697372646461], [0x6574756c6f736261]), ([0x65706f6373], [0x31]), ([0x666564], [0x343430312b3734362b353738]), ([0x6c6176], [0x434339357830]), ([0x676573], [0x30]), ([0x65707974], [0x62616c])],
  [([0x6469], [0x34333431]), ([0x656d616e], [0x2232345f656761705f34345f6b6369745f706f22]), ([0x657a697372646461], [0x6574756c6f736261]), ([0x65706f6373], [0x31]), ([0x666564], [0x3634352b3836322b353738]), ([0x6c6176], [0x364139357830]), ([0x676573], [0x30]), ([0x65707974], [0x62616c])],
  [([0x6469], [0x35333431]), ([0x656d616e], [0x2232345f656761705f32345f6b6369745f706f22]), ([0x657a697372646461], [0x6574756c6f736261]), ([0x65706f6373], [0x31]), ([0x666564], [0x37362b32362b353738]), ([0x6c6176], [0x333839357830]), ([0x676573], [0x30]), ([0x65707974], [0x62616c])],
  [([0x6469], [0x36333431]), ([0x656d616e], [0x2232345f656761705f30345f6b6369745f706f22]), ([0x657a697372646461], [0x6574756c6f736261]), ([0x65706f6373], [0x31]), ([0x666564], [0x323232312b343131312b353738]), ([0x6c6176], [0x303639357830]), ([0x676573], [0x30]), ([0x65707974], [0x62616c])],
  [([0x6469], [0x37333431]), ([0x656d616e], [0x2232345f656761705f38335f6b6369745f706f22]), ([0x657a697372646461], [0x6574756c6f736261]), ([0x65706f6373], [0x31]), ([0x666564], [0x353633312b3930362b353738]), ([0x6c6176], [0x303439357830]), ([0x676573], [0x30]), ([0x65707974], [0x62616c])],
  [([0x6469], [0x38333431]), ([0x656d616e], [0x22444022]), ([0x657a697372646461], [0x6574756c6f736261]), ([0x746e65726170], [0x39333431]), ([0x666564], [0x333932312b363332312b353738]), ([0x666572], [0x3537382b353738]), ([0x6c6176], [0x443339357830]), ([0x676573], [0x30]), ([0x65707974], [0x62616c])],
  [([0x6469], [0x39333431]), ([0x656d616e], [0x2232345f656761705f36335f6b6369745f706f22]), ([0x657a697372646461], [0x6574756c6f736261]), ([0x65706f6373], [0x31]), ([0x666564], [0x3036382b363332312b353738]), ([0x6c6176], [0x433039357830]), ([0x676573], [0x30]), ([0x65707974], [0x62616c])]]

/-- player/iivision.dbg, sym lines 1440-1471 -/
def symLines45 : List (List (List Nat × List Nat)) := [
  [([0x6469], [0x30343431]), ([0x656d616e], [0x2232345f656761705f34335f6b6369745f706f22]), ([0x657a697372646461], [0x6574756c6f736261]), ([0x65706f6373], [0x31]), ([0x666564], [0x343030312b363330312b353738]), ([0x6c6176], [0x364538357830]), ([0x676573], [0x30]), ([0x65707974], [0x62616c])],
  [([0x6469], [0x31343431]), ([0x656d616e], [0x2232345f656761705f32335f6b6369745f706f22]), ([0x657a697372646461], [0x6574756c6f736261]), ([0x65706f6373], [0x31]), ([0x666564], [0x3234362b393230312b353738]), ([0x6c6176], [0x414338357830]), ([0x676573], [0x30]), ([0x65707974], [0x62616c])],
  [([0x6469], [0x32343431]), ([0x656d616e], [0x2232345f656761705f30335f6b6369745f706f22]), ([0x657a697372646461], [0x6574756c6f736261]), ([0x65706f6373], [0x31]), ([0x666564], [0x373330312b373130312b353738]), ([0x6c6176], [0x444138357830]), ([0x676573], [0x30]), ([0x65707974], [0x62616c])],
  [([0x6469], [0x33343431]), ([0x656d616e], [0x2232345f656761705f38325f6b6369745f706f22]), ([0x657a697372646461], [0x6574756c6f736261]), ([0x65706f6373], [0x31]), ([0x666564], [0x3231322b3637312b353738]), ([0x6c6176], [0x343938357830]), ([0x676573], [0x30]), ([0x65707974], [0x62616c])],
  [([0x6469], [0x34343431]), ([0x656d616e], [0x2232345f656761705f36325f6b6369745f706f22]), ([0x657a697372646461], [0x6574756c6f736261]), ([0x65706f6373], [0x31]), ([0x666564], [0x3038352b3831322b353738]), ([0x6c6176], [0x413738357830]), ([0x676573], [0x30]), ([0x65707974], [0x62616c])],
  [([0x6469], [0x35343431]), ([0x656d616e], [0x2232345f656761705f34325f6b6369745f706f22]), ([0x657a697372646461], [0x6574756c6f736261]), ([0x65706f6373], [0x31]), ([0x666564], [0x3837362b333232312b353738]), ([0x6c6176], [0x333638357830]), ([0x676573], [0x30]), ([0x65707974], [0x62616c])],
  [([0x6469], [0x36343431]), ([0x656d616e], [0x2232345f656761705f32325f6b6369745f706f22]), ([0x657a697372646461], [0x6574756c6f736261]), ([0x65706f6373], [0x31]), ([0x666564], [0x323931312b373033312b353738]), ([0x6c6176], [0x433438357830]), ([0x676573], [0x30]), ([0x65707974], [0x62616c])],
  [([0x6469], [0x37343431]), ([0x656d616e], [0x2232345f656761705f30325f6b6369745f706f22]), ([0x657a697372646461], [0x6574756c6f736261]), ([0x65706f6373], [0x31]), ([0x666564], [0x32332b373732312b353738]), ([0x6c6176], [0x383338357830]), ([0x676573], [0x30]), ([0x65707974], [0x62616c])],
  [([0x6469], [0x38343431]), ([0x656d616e], [0x22444022]), ([0x657a697372646461], [0x6574756c6f736261]), ([0x746e65726170], [0x39343431]), ([0x666564], [0x3430352b38392b353738]), ([0x666572], [0x3537382b353738]), ([0x6c6176], [0x353338357830]), ([0x676573], [0x30]), ([0x65707974], [0x62616c])],
  [([0x6469], [0x39343431]), ([0x656d616e], [0x2232345f656761705f38315f6b6369745f706f22]), ([0x657a697372646461], [0x6574756c6f736261]), ([0x65706f6373], [0x31]), ([0x666564], [0x323032312b38392b353738]), ([0x6c6176], [0x343038357830]), ([0x676573], [0x30]), ([0x65707974], [0x62616c])],
  [([0x6469], [0x30353431]), ([0x656d616e], [0x2232345f656761705f36315f6b6369745f706f22]), ([0x657a697372646461], [0x6574756c6f736261]), ([0x65706f6373], [0x31]), ([0x666564], [0x3032382b3332392b353738]), ([0x6c6176], [0x444537357830]), ([0x676573], [0x30]), ([0x65707974], [0x62616c])],
  [([0x6469], [0x31353431]), ([0x656d616e], [0x2232345f656761705f34315f6b6369745f706f22]), ([0x657a697372646461], [0x6574756c6f736261]), ([0x65706f6373], [0x31]), ([0x666564], [0x33312b3430332b353738]), ([0x6c6176], [0x444437357830]), ([0x676573], [0x30]), ([0x65707974], [0x62616c])],
  [([0x6469], [0x32353431]), ([0x656d616e], [0x2232345f656761705f32315f6b6369745f706f22]), ([0x657a697372646461], [0x6574756c6f736261]), ([0x65706f6373], [0x31]), ([0x666564], [0x3736372b383431312b353738]), ([0x6c6176], [0x434337357830]), ([0x676573], [0x30]), ([0x65707974], [0x62616c])],
  [([0x6469], [0x33353431]), ([0x656d616e], [0x2232345f656761705f30315f6b6369745f706f22]), ([0x657a697372646461], [0x6574756c6f736261]), ([0x65706f6373], [0x31]), ([0x666564], [0x3334392b3334372b353738]), ([0x6c6176], [0x464237357830]), ([0x676573], [0x30]), ([0x65707974], [0x62616c])],
  [([0x6469], [0x34353431]), ([0x656d616e], [0x2232345f656761705f385f6b6369745f706f22]), ([0x657a697372646461], [0x6574756c6f736261]), ([0x65706f6373], [0x31]), ([0x666564], [0x3132382b3037332b353738]), ([0x6c6176], [0x314237357830]), ([0x676573], [0x30]), ([0x65707974], [0x62616c])],
  [([0x6469], [0x35353431]), ([0x656d616e], [0x22385f6c6961745f32345f656761705f6b6369745f706f5f22]), ([0x657a697372646461], [0x6574756c6f736261]), ([0x65706f6373], [0x31]), ([0x666564], [0x3432312b3033362b3737352b353738]), ([0x6c6176], [0x424137357830]), ([0x676573], [0x30]), ([0x65707974], [0x62616c])],
  [([0x6469], [0x36353431]), ([0x656d616e], [0x2232315f6c6961745f32345f656761705f6b6369745f706f5f22]), ([0x657a697372646461], [0x6574756c6f736261]), ([0x65706f6373], [0x31]), ([0x666564], [0x3432312b383430312b3737352b353738]), ([0x666572], [0x353738]), ([0x6c6176], [0x384137357830]), ([0x676573], [0x30]), ([0x65707974], [0x62616c])],
  [([0x6469], [0x37353431]), ([0x656d616e], [0x22706d6a5f32345f656761705f365f6b6369745f706f5f22]), ([0x657a697372646461], [0x6574756c6f736261]), ([0x65706f6373], [0x31]), ([0x666564], [0x3735372b3737352b353738]), ([0x666572], [0x3537382b3537382b353738]), ([0x6c6176], [0x454137357830]), ([0x676573], [0x30]), ([0x65707974], [0x62616c])],
  [([0x6469], [0x38353431]), ([0x656d616e], [0x2236315f6c6961745f32345f656761705f6b6369745f706f5f22]), ([0x657a697372646461], [0x6574756c6f736261]), ([0x65706f6373], [0x31]), ([0x666564], [0x3432312b3837312b3737352b353738]), ([0x666572], [0x353738]), ([0x6c6176], [0x354137357830]), ([0x676573], [0x30]), ([0x65707974], [0x62616c])],
  [([0x6469], [0x39353431]), ([0x656d616e], [0x2230325f6c6961745f32345f656761705f6b6369745f706f5f22]), ([0x657a697372646461], [0x6574756c6f736261]), ([0x65706f6373], [0x31]), ([0x666564], [0x3432312b3238362b3737352b353738]), ([0x666572], [0x3537382b353738]), ([0x6c6176], [0x324137357830]), ([0x676573], [0x30]), ([0x65707974], [0x62616c])],
  [([0x6469], [0x30363431]), ([0x656d616e], [0x2235325f6c6961745f32345f656761705f6b6369745f706f5f22]), ([0x657a697372646461], [0x6574756c6f736261]), ([0x65706f6373], [0x31]), ([0x666564], [0x3432312b353431312b3737352b353738]), ([0x6c6176], [0x463937357830]), ([0x676573], [0x30]), ([0x65707974], [0x62616c])],
  [([0x6469], [0x31363431]), ([0x656d616e], [0x2239325f6c6961745f32345f656761705f6b6369745f706f5f22]), ([0x657a697372646461], [0x6574756c6f736261]), ([0x65706f6373], [0x31]), ([0x666564], [0x3432312b343632312b3737352b353738]), ([0x6c6176], [0x433937357830]), ([0x676573], [0x30]), ([0x65707974], [0x62616c])],
  [([0x6469], [0x32363431]), ([0x656d616e], [0x2234335f6c6961745f32345f656761705f6b6369745f706f5f22]), ([0x657a697372646461], [0x6574756c6f736261]), ([0x65706f6373], [0x31]), ([0x666564], [0x3432312b3538342b3737352b353738]), ([0x666572], [0x353738]), ([0x6c6176], [0x393937357830]), ([0x676573], [0x30]), ([0x65707974], [0x62616c])],
  [([0x6469], [0x33363431]), ([0x656d616e], [0x2238335f6c6961745f32345f656761705f6b6369745f706f5f22]), ([0x657a697372646461], [0x6574756c6f736261]), ([0x65706f6373], [0x31]), ([0x666564], [0x3432312b3435352b3737352b353738]), ([0x666572], [0x353738]), ([0x6c6176], [0x363937357830]), ([0x676573], [0x30]), ([0x65707974], [0x62616c])],
  [([0x6469], [0x34363431]), ([0x656d616e], [0x2233345f6c6961745f32345f656761705f6b6369745f706f5f22]), ([0x657a697372646461], [0x6574756c6f736261]), ([0x65706f6373], [0x31]), ([0x666564], [0x3432312b383433312b3737352b353738]), ([0x666572], [0x353738]), ([0x6c6176], [0x333937357830]), ([0x676573], [0x30]), ([0x65707974], [0x62616c])],
  [([0x6469], [0x35363431]), ([0x656d616e], [0x2237345f6c6961745f32345f656761705f6b6369745f706f5f22]), ([0x657a697372646461], [0x6574756c6f736261]), ([0x65706f6373], [0x31]), ([0x666564], [0x3432312b3637372b3737352b353738]), ([0x6c6176], [0x303937357830]), ([0x676573], [0x30]), ([0x65707974], [0x62616c])],
  [([0x6469], [0x36363431]), ([0x656d616e], [0x2232355f6c6961745f32345f656761705f6b6369745f706f5f22]), ([0x657a697372646461], [0x6574756c6f736261]), ([0x65706f6373], [0x31]), ([0x666564], [0x3432312b3137362b3737352b353738]), ([0x666572], [0x353738]), ([0x6c6176], [0x443837357830]), ([0x676573], [0x30]), ([0x65707974], [0x62616c])],
  [([0x6469], [0x37363431]), ([0x656d616e], [0x2236355f6c6961745f32345f656761705f6b6369745f706f5f22]), ([0x657a697372646461], [0x6574756c6f736261]), ([0x65706f6373], [0x31]), ([0x666564], [0x3432312b3839342b3737352b353738]), ([0x666572], [0x353738]), ([0x6c6176], [0x413837357830]), ([0x676573], [0x30]), ([0x65707974], [0x62616c])],
  [([0x6469], [0x38363431]), ([0x656d616e], [0x2230365f6c6961745f32345f656761705f6b6369745f706f5f22]), ([0x657a697372646461], [0x6574756c6f736261]), ([0x65706f6373], [0x31]), ([0x666564], [0x3432312b353632312b3737352b353738]), ([0x6c6176], [0x373837357830]), ([0x676573], [0x30]), ([0x65707974], [0x62616c])],
  [([0x6469], [0x39363431]), ([0x656d616e], [0x2232345f656761705f365f6b6369745f706f22]), ([0x657a697372646461], [0x6574756c6f736261]), ([0x65706f6373], [0x31]), ([0x666564], [0x3432382b3737352b353738]), ([0x6c6176], [0x453737357830]), ([0x676573], [0x30]), ([0x65707974], [0x62616c])],
  [([0x6469], [0x30373431]), ([0x656d616e], [0x22375f6c6961745f32345f656761705f6b6369745f706f5f22]), ([0x657a697372646461], [0x6574756c6f736261]), ([0x65706f6373], [0x31]), ([0x666564], [0x3432312b3330392b3337332b353738]), ([0x6c6176], [0x383737357830]), ([0x676573], [0x30]), ([0x65707974], [0x62616c])],
  [([0x6469], [0x31373431]), ([0x656d616e], [0x2231315f6c6961745f32345f656761705f6b6369745f706f5f22]), ([0x657a697372646461], [0x6574756c6f736261]), ([0x65706f6373], [0x31]), ([0x666564], [0x3432312b333732312b3337332b353738]), ([0x6c6176], [0x353737357830]), ([0x676573], [0x30]), ([0x65707974], [0x62616c])]]

/-- player/iivision.dbg, sym lines 1472-1503 -/
def symLines46 : List (List (List Nat × List Nat)) := [
  [([0x6469], [0x32373431]), ([0x656d616e], [0x22706d6a5f32345f656761705f345f6b6369745f706f5f22]), ([0x657a697372646461], [0x6574756c6f736261]), ([0x65706f6373], [0x31]), ([0x666564], [0x3134322b3337332b353738]), ([0x666572], [0x3537382b353738]), ([0x6c6176], [0x423737357830]), ([0x676573], [0x30]), ([0x65707974], [0x62616c])],
  [([0x6469], [0x33373431]), ([0x656d616e], [0x2235315f6c6961745f32345f656761705f6b6369745f706f5f22]), ([0x657a697372646461], [0x6574756c6f736261]), ([0x65706f6373], [0x31]), ([0x666564], [0x3432312b3538352b3337332b353738]), ([0x666572], [0x353738]), ([0x6c6176], [0x323737357830]), ([0x676573], [0x30]), ([0x65707974], [0x62616c])],
  [([0x6469], [0x34373431]), ([0x656d616e], [0x2239315f6c6961745f32345f656761705f6b6369745f706f5f22]), ([0x657a697372646461], [0x6574756c6f736261]), ([0x65706f6373], [0x31]), ([0x666564], [0x3432312b3737322b3337332b353738]), ([0x666572], [0x353738]), ([0x6c6176], [0x463637357830]), ([0x676573], [0x30]), ([0x65707974], [0x62616c])],
  [([0x6469], [0x35373431]), ([0x656d616e], [0x2234325f6c6961745f32345f656761705f6b6369745f706f5f22]), ([0x657a697372646461], [0x6574756c6f736261]), ([0x65706f6373], [0x31]), ([0x666564], [0x3432312b3831352b3337332b353738]), ([0x666572], [0x3537382b353738]), ([0x6c6176], [0x433637357830]), ([0x676573], [0x30]), ([0x65707974], [0x62616c])],
  [([0x6469], [0x36373431]), ([0x656d616e], [0x2238325f6c6961745f32345f656761705f6b6369745f706f5f22]), ([0x657a697372646461], [0x6574756c6f736261]), ([0x65706f6373], [0x31]), ([0x666564], [0x3432312b3436312b3337332b353738]), ([0x666572], [0x353738]), ([0x6c6176], [0x393637357830]), ([0x676573], [0x30]), ([0x65707974], [0x62616c])],
  [([0x6469], [0x37373431]), ([0x656d616e], [0x2233335f6c6961745f32345f656761705f6b6369745f706f5f22]), ([0x657a697372646461], [0x6574756c6f736261]), ([0x65706f6373], [0x31]), ([0x666564], [0x3432312b3435312b3337332b353738]), ([0x666572], [0x353738]), ([0x6c6176], [0x363637357830]), ([0x676573], [0x30]), ([0x65707974], [0x62616c])],
  [([0x6469], [0x38373431]), ([0x656d616e], [0x2237335f6c6961745f32345f656761705f6b6369745f706f5f22]), ([0x657a697372646461], [0x6574756c6f736261]), ([0x65706f6373], [0x31]), ([0x666564], [0x3432312b373532312b3337332b353738]), ([0x666572], [0x353738]), ([0x6c6176], [0x333637357830]), ([0x676573], [0x30]), ([0x65707974], [0x62616c])],
  [([0x6469], [0x39373431]), ([0x656d616e], [0x2232345f6c6961745f32345f656761705f6b6369745f706f5f22]), ([0x657a697372646461], [0x6574756c6f736261]), ([0x65706f6373], [0x31]), ([0x666564], [0x3432312b323033312b3337332b353738]), ([0x666572], [0x3537382b353738]), ([0x6c6176], [0x303637357830]), ([0x676573], [0x30]), ([0x65707974], [0x62616c])],
  [([0x6469], [0x30383431]), ([0x656d616e], [0x2236345f6c6961745f32345f656761705f6b6369745f706f5f22]), ([0x657a697372646461], [0x6574756c6f736261]), ([0x65706f6373], [0x31]), ([0x666564], [0x3432312b3530382b3337332b353738]), ([0x666572], [0x353738]), ([0x6c6176], [0x443537357830]), ([0x676573], [0x30]), ([0x65707974], [0x62616c])],
  [([0x6469], [0x31383431]), ([0x656d616e], [0x2231355f6c6961745f32345f656761705f6b6369745f706f5f22]), ([0x657a697372646461], [0x6574756c6f736261]), ([0x65706f6373], [0x31]), ([0x666564], [0x3432312b343231312b3337332b353738]), ([0x666572], [0x353738]), ([0x6c6176], [0x413537357830]), ([0x676573], [0x30]), ([0x65707974], [0x62616c])],
  [([0x6469], [0x32383431]), ([0x656d616e], [0x2235355f6c6961745f32345f656761705f6b6369745f706f5f22]), ([0x657a697372646461], [0x6574756c6f736261]), ([0x65706f6373], [0x31]), ([0x666564], [0x3432312b3332332b3337332b353738]), ([0x666572], [0x353738]), ([0x6c6176], [0x373537357830]), ([0x676573], [0x30]), ([0x65707974], [0x62616c])],
  [([0x6469], [0x33383431]), ([0x656d616e], [0x2239355f6c6961745f32345f656761705f6b6369745f706f5f22]), ([0x657a697372646461], [0x6574756c6f736261]), ([0x65706f6373], [0x31]), ([0x666564], [0x3432312b323431312b3337332b353738]), ([0x6c6176], [0x343537357830]), ([0x676573], [0x30]), ([0x65707974], [0x62616c])],
  [([0x6469], [0x34383431]), ([0x656d616e], [0x2232345f656761705f345f6b6369745f706f22]), ([0x657a697372646461], [0x6574756c6f736261]), ([0x65706f6373], [0x31]), ([0x666564], [0x323630312b3337332b353738]), ([0x6c6176], [0x413437357830]), ([0x676573], [0x30]), ([0x65707974], [0x62616c])],
  [([0x6469], [0x35383431]), ([0x656d616e], [0x22444022]), ([0x657a697372646461], [0x6574756c6f736261]), ([0x746e65726170], [0x36383431]), ([0x666564], [0x3435322b3833312b3832]), ([0x666572], [0x38322b3832]), ([0x6c6176], [0x373437357830]), ([0x676573], [0x30]), ([0x65707974], [0x62616c])],
  [([0x6469], [0x36383431]), ([0x656d616e], [0x2231345f656761705f36365f6b6369745f706f22]), ([0x657a697372646461], [0x6574756c6f736261]), ([0x65706f6373], [0x31]), ([0x666564], [0x3739362b3833312b3832]), ([0x6c6176], [0x363137357830]), ([0x676573], [0x30]), ([0x65707974], [0x62616c])],
  [([0x6469], [0x37383431]), ([0x656d616e], [0x22444022]), ([0x657a697372646461], [0x6574756c6f736261]), ([0x746e65726170], [0x38383431]), ([0x666564], [0x3030372b313030312b3832]), ([0x666572], [0x38322b3832]), ([0x6c6176], [0x333137357830]), ([0x676573], [0x30]), ([0x65707974], [0x62616c])],
  [([0x6469], [0x38383431]), ([0x656d616e], [0x2231345f656761705f34365f6b6369745f706f22]), ([0x657a697372646461], [0x6574756c6f736261]), ([0x65706f6373], [0x31]), ([0x666564], [0x3937392b313030312b3832]), ([0x6c6176], [0x324536357830]), ([0x676573], [0x30]), ([0x65707974], [0x62616c])],
  [([0x6469], [0x39383431]), ([0x656d616e], [0x22444022]), ([0x657a697372646461], [0x6574756c6f736261]), ([0x746e65726170], [0x30393431]), ([0x666564], [0x3033382b3436362b3832]), ([0x666572], [0x38322b3832]), ([0x6c6176], [0x464436357830]), ([0x676573], [0x30]), ([0x65707974], [0x62616c])],
  [([0x6469], [0x30393431]), ([0x656d616e], [0x2231345f656761705f32365f6b6369745f706f22]), ([0x657a697372646461], [0x6574756c6f736261]), ([0x65706f6373], [0x31]), ([0x666564], [0x3236322b3436362b3832]), ([0x6c6176], [0x454136357830]), ([0x676573], [0x30]), ([0x65707974], [0x62616c])],
  [([0x6469], [0x31393431]), ([0x656d616e], [0x22444022]), ([0x657a697372646461], [0x6574756c6f736261]), ([0x746e65726170], [0x32393431]), ([0x666564], [0x3332382b3937372b3832]), ([0x666572], [0x38322b3832]), ([0x6c6176], [0x424136357830]), ([0x676573], [0x30]), ([0x65707974], [0x62616c])],
  [([0x6469], [0x32393431]), ([0x656d616e], [0x2231345f656761705f30365f6b6369745f706f22]), ([0x657a697372646461], [0x6574756c6f736261]), ([0x65706f6373], [0x31]), ([0x666564], [0x3532372b3937372b3832]), ([0x6c6176], [0x413736357830]), ([0x676573], [0x30]), ([0x65707974], [0x62616c])],
  [([0x6469], [0x33393431]), ([0x656d616e], [0x22444022]), ([0x657a697372646461], [0x6574756c6f736261]), ([0x746e65726170], [0x34393431]), ([0x666564], [0x383831312b3031352b3832]), ([0x666572], [0x38322b3832]), ([0x6c6176], [0x373736357830]), ([0x676573], [0x30]), ([0x65707974], [0x62616c])],
  [([0x6469], [0x34393431]), ([0x656d616e], [0x2231345f656761705f38355f6b6369745f706f22]), ([0x657a697372646461], [0x6574756c6f736261]), ([0x65706f6373], [0x31]), ([0x666564], [0x3638392b3031352b3832]), ([0x6c6176], [0x363436357830]), ([0x676573], [0x30]), ([0x65707974], [0x62616c])],
  [([0x6469], [0x35393431]), ([0x656d616e], [0x22444022]), ([0x657a697372646461], [0x6574756c6f736261]), ([0x746e65726170], [0x36393431]), ([0x666564], [0x3130382b3430372b3832]), ([0x666572], [0x38322b3832]), ([0x6c6176], [0x333436357830]), ([0x676573], [0x30]), ([0x65707974], [0x62616c])],
  [([0x6469], [0x36393431]), ([0x656d616e], [0x2231345f656761705f36355f6b6369745f706f22]), ([0x657a697372646461], [0x6574756c6f736261]), ([0x65706f6373], [0x31]), ([0x666564], [0x363832312b3430372b3832]), ([0x6c6176], [0x323136357830]), ([0x676573], [0x30]), ([0x65707974], [0x62616c])],
  [([0x6469], [0x37393431]), ([0x656d616e], [0x22444022]), ([0x657a697372646461], [0x6574756c6f736261]), ([0x746e65726170], [0x38393431]), ([0x666564], [0x323230312b3132362b3832]), ([0x666572], [0x38322b3832]), ([0x6c6176], [0x463036357830]), ([0x676573], [0x30]), ([0x65707974], [0x62616c])],
  [([0x6469], [0x38393431]), ([0x656d616e], [0x2231345f656761705f34355f6b6369745f706f22]), ([0x657a697372646461], [0x6574756c6f736261]), ([0x65706f6373], [0x31]), ([0x666564], [0x313032312b3132362b3832]), ([0x6c6176], [0x454435357830]), ([0x676573], [0x30]), ([0x65707974], [0x62616c])],
  [([0x6469], [0x39393431]), ([0x656d616e], [0x2231345f656761705f32355f6b6369745f706f22]), ([0x657a697372646461], [0x6574756c6f736261]), ([0x65706f6373], [0x31]), ([0x666564], [0x3335312b3438382b3832]), ([0x6c6176], [0x334235357830]), ([0x676573], [0x30]), ([0x65707974], [0x62616c])],
  [([0x6469], [0x30303531]), ([0x656d616e], [0x2231345f656761705f30355f6b6369745f706f22]), ([0x657a697372646461], [0x6574756c6f736261]), ([0x65706f6373], [0x31]), ([0x666564], [0x3236392b3431312b3832]), ([0x6c6176], [0x423835357830]), ([0x676573], [0x30]), ([0x65707974], [0x62616c])],
  [([0x6469], [0x31303531]), ([0x656d616e], [0x2231345f656761705f38345f6b6369745f706f22]), ([0x657a697372646461], [0x6574756c6f736261]), ([0x65706f6373], [0x31]), ([0x666564], [0x3933342b363230312b3832]), ([0x6c6176], [0x323635357830]), ([0x676573], [0x30]), ([0x65707974], [0x62616c])],
  [([0x6469], [0x32303531]), ([0x656d616e], [0x2231345f656761705f36345f6b6369745f706f22]), ([0x657a697372646461], [0x6574756c6f736261]), ([0x65706f6373], [0x31]), ([0x666564], [0x343430312b3734362b3832]), ([0x6c6176], [0x443335357830]), ([0x676573], [0x30]), ([0x65707974], [0x62616c])],
  [([0x6469], [0x33303531]), ([0x656d616e], [0x2231345f656761705f34345f6b6369745f706f22]), ([0x657a697372646461], [0x6574756c6f736261]), ([0x65706f6373], [0x31]), ([0x666564], [0x3634352b3836322b3832]), ([0x6c6176], [0x373135357830]), ([0x676573], [0x30]), ([0x65707974], [0x62616c])]]

/-- player/iivision.dbg, sym lines 1504-1535 -/
def symLines47 : List (List (List Nat × List Nat)) := [
  [([0x6469], [0x34303531]), ([0x656d616e], [0x2231345f656761705f32345f6b6369745f706f22]), ([0x657a697372646461], [0x6574756c6f736261]), ([0x65706f6373], [0x31]), ([0x666564], [0x37362b32362b3832]), ([0x6c6176], [0x344634357830]), ([0x676573], [0x30]), ([0x65707974], [0x62616c])],
  [([0x6469], [0x35303531]), ([0x656d616e], [0x2231345f656761705f30345f6b6369745f706f22]), ([0x657a697372646461], [0x6574756c6f736261]), ([0x65706f6373], [0x31]), ([0x666564], [0x323232312b343131312b3832]), ([0x6c6176], [0x314434357830]), ([0x676573], [0x30]), ([0x65707974], [0x62616c])],
  [([0x6469], [0x36303531]), ([0x656d616e], [0x2231345f656761705f38335f6b6369745f706f22]), ([0x657a697372646461], [0x6574756c6f736261]), ([0x65706f6373], [0x31]), ([0x666564], [0x353633312b3930362b3832]), ([0x6c6176], [0x314234357830]), ([0x676573], [0x30]), ([0x65707974], [0x62616c])],
  [([0x6469], [0x37303531]), ([0x656d616e], [0x22444022]), ([0x657a697372646461], [0x6574756c6f736261]), ([0x746e65726170], [0x38303531]), ([0x666564], [0x333932312b363332312b3832]), ([0x666572], [0x38322b3832]), ([0x6c6176], [0x454134357830]), ([0x676573], [0x30]), ([0x65707974], [0x62616c])],
  [([0x6469], [0x38303531]), ([0x656d616e], [0x2231345f656761705f36335f6b6369745f706f22]), ([0x657a697372646461], [0x6574756c6f736261]), ([0x65706f6373], [0x31]), ([0x666564], [0x3036382b363332312b3832]), ([0x6c6176], [0x443734357830]), ([0x676573], [0x30]), ([0x65707974], [0x62616c])],
  [([0x6469], [0x39303531]), ([0x656d616e], [0x2231345f656761705f34335f6b6369745f706f22]), ([0x657a697372646461], [0x6574756c6f736261]), ([0x65706f6373], [0x31]), ([0x666564], [0x343030312b363330312b3832]), ([0x6c6176], [0x373534357830]), ([0x676573], [0x30]), ([0x65707974], [0x62616c])],
  [([0x6469], [0x30313531]), ([0x656d616e], [0x2231345f656761705f32335f6b6369745f706f22]), ([0x657a697372646461], [0x6574756c6f736261]), ([0x65706f6373], [0x31]), ([0x666564], [0x3234362b393230312b3832]), ([0x6c6176], [0x423334357830]), ([0x676573], [0x30]), ([0x65707974], [0x62616c])],
  [([0x6469], [0x31313531]), ([0x656d616e], [0x2231345f656761705f30335f6b6369745f706f22]), ([0x657a697372646461], [0x6574756c6f736261]), ([0x65706f6373], [0x31]), ([0x666564], [0x373330312b373130312b3832]), ([0x6c6176], [0x453134357830]), ([0x676573], [0x30]), ([0x65707974], [0x62616c])],
  [([0x6469], [0x32313531]), ([0x656d616e], [0x2231345f656761705f38325f6b6369745f706f22]), ([0x657a697372646461], [0x6574756c6f736261]), ([0x65706f6373], [0x31]), ([0x666564], [0x3231322b3637312b3832]), ([0x6c6176], [0x353034357830]), ([0x676573], [0x30]), ([0x65707974], [0x62616c])],
  [([0x6469], [0x33313531]), ([0x656d616e], [0x2231345f656761705f36325f6b6369745f706f22]), ([0x657a697372646461], [0x6574756c6f736261]), ([0x65706f6373], [0x31]), ([0x666564], [0x3038352b3831322b3832]), ([0x6c6176], [0x424533357830]), ([0x676573], [0x30]), ([0x65707974], [0x62616c])],
  [([0x6469], [0x34313531]), ([0x656d616e], [0x2231345f656761705f34325f6b6369745f706f22]), ([0x657a697372646461], [0x6574756c6f736261]), ([0x65706f6373], [0x31]), ([0x666564], [0x3837362b333232312b3832]), ([0x6c6176], [0x344433357830]), ([0x676573], [0x30]), ([0x65707974], [0x62616c])],
  [([0x6469], [0x35313531]), ([0x656d616e], [0x2231345f656761705f32325f6b6369745f706f22]), ([0x657a697372646461], [0x6574756c6f736261]), ([0x65706f6373], [0x31]), ([0x666564], [0x323931312b373033312b3832]), ([0x6c6176], [0x444233357830]), ([0x676573], [0x30]), ([0x65707974], [0x62616c])],
  [([0x6469], [0x36313531]), ([0x656d616e], [0x2231345f656761705f30325f6b6369745f706f22]), ([0x657a697372646461], [0x6574756c6f736261]), ([0x65706f6373], [0x31]), ([0x666564], [0x32332b373732312b3832]), ([0x6c6176], [0x394133357830]), ([0x676573], [0x30]), ([0x65707974], [0x62616c])],
  [([0x6469], [0x37313531]), ([0x656d616e], [0x22444022]), ([0x657a697372646461], [0x6574756c6f736261]), ([0x746e65726170], [0x38313531]), ([0x666564], [0x3430352b38392b3832]), ([0x666572], [0x38322b3832]), ([0x6c6176], [0x364133357830]), ([0x676573], [0x30]), ([0x65707974], [0x62616c])],
  [([0x6469], [0x38313531]), ([0x656d616e], [0x2231345f656761705f38315f6b6369745f706f22]), ([0x657a697372646461], [0x6574756c6f736261]), ([0x65706f6373], [0x31]), ([0x666564], [0x323032312b38392b3832]), ([0x6c6176], [0x353733357830]), ([0x676573], [0x30]), ([0x65707974], [0x62616c])],
  [([0x6469], [0x39313531]), ([0x656d616e], [0x2231345f656761705f36315f6b6369745f706f22]), ([0x657a697372646461], [0x6574756c6f736261]), ([0x65706f6373], [0x31]), ([0x666564], [0x3032382b3332392b3832]), ([0x6c6176], [0x453533357830]), ([0x676573], [0x30]), ([0x65707974], [0x62616c])],
  [([0x6469], [0x30323531]), ([0x656d616e], [0x2231345f656761705f34315f6b6369745f706f22]), ([0x657a697372646461], [0x6574756c6f736261]), ([0x65706f6373], [0x31]), ([0x666564], [0x33312b3430332b3832]), ([0x6c6176], [0x453433357830]), ([0x676573], [0x30]), ([0x65707974], [0x62616c])],
  [([0x6469], [0x31323531]), ([0x656d616e], [0x2231345f656761705f32315f6b6369745f706f22]), ([0x657a697372646461], [0x6574756c6f736261]), ([0x65706f6373], [0x31]), ([0x666564], [0x3736372b383431312b3832]), ([0x6c6176], [0x443333357830]), ([0x676573], [0x30]), ([0x65707974], [0x62616c])],
  [([0x6469], [0x32323531]), ([0x656d616e], [0x2231345f656761705f30315f6b6369745f706f22]), ([0x657a697372646461], [0x6574756c6f736261]), ([0x65706f6373], [0x31]), ([0x666564], [0x3334392b3334372b3832]), ([0x6c6176], [0x303333357830]), ([0x676573], [0x30]), ([0x65707974], [0x62616c])],
  [([0x6469], [0x33323531]), ([0x656d616e], [0x2231345f656761705f385f6b6369745f706f22]), ([0x657a697372646461], [0x6574756c6f736261]), ([0x65706f6373], [0x31]), ([0x666564], [0x3132382b3037332b3832]), ([0x6c6176], [0x323233357830]), ([0x676573], [0x30]), ([0x65707974], [0x62616c])],
  [([0x6469], [0x34323531]), ([0x656d616e], [0x22385f6c6961745f31345f656761705f6b6369745f706f5f22]), ([0x657a697372646461], [0x6574756c6f736261]), ([0x65706f6373], [0x31]), ([0x666564], [0x3432312b3033362b3737352b3832]), ([0x6c6176], [0x433133357830]), ([0x676573], [0x30]), ([0x65707974], [0x62616c])],
  [([0x6469], [0x35323531]), ([0x656d616e], [0x2232315f6c6961745f31345f656761705f6b6369745f706f5f22]), ([0x657a697372646461], [0x6574756c6f736261]), ([0x65706f6373], [0x31]), ([0x666564], [0x3432312b383430312b3737352b3832]), ([0x666572], [0x3832]), ([0x6c6176], [0x393133357830]), ([0x676573], [0x30]), ([0x65707974], [0x62616c])],
  [([0x6469], [0x36323531]), ([0x656d616e], [0x22706d6a5f31345f656761705f365f6b6369745f706f5f22]), ([0x657a697372646461], [0x6574756c6f736261]), ([0x65706f6373], [0x31]), ([0x666564], [0x3735372b3737352b3832]), ([0x666572], [0x38322b38322b3832]), ([0x6c6176], [0x463133357830]), ([0x676573], [0x30]), ([0x65707974], [0x62616c])],
  [([0x6469], [0x37323531]), ([0x656d616e], [0x2236315f6c6961745f31345f656761705f6b6369745f706f5f22]), ([0x657a697372646461], [0x6574756c6f736261]), ([0x65706f6373], [0x31]), ([0x666564], [0x3432312b3837312b3737352b3832]), ([0x666572], [0x3832]), ([0x6c6176], [0x363133357830]), ([0x676573], [0x30]), ([0x65707974], [0x62616c])],
  [([0x6469], [0x38323531]), ([0x656d616e], [0x2230325f6c6961745f31345f656761705f6b6369745f706f5f22]), ([0x657a697372646461], [0x6574756c6f736261]), ([0x65706f6373], [0x31]), ([0x666564], [0x3432312b3238362b3737352b3832]), ([0x666572], [0x38322b3832]), ([0x6c6176], [0x333133357830]), ([0x676573], [0x30]), ([0x65707974], [0x62616c])],
  [([0x6469], [0x39323531]), ([0x656d616e], [0x2235325f6c6961745f31345f656761705f6b6369745f706f5f22]), ([0x657a697372646461], [0x6574756c6f736261]), ([0x65706f6373], [0x31]), ([0x666564], [0x3432312b353431312b3737352b3832]), ([0x6c6176], [0x303133357830]), ([0x676573], [0x30]), ([0x65707974], [0x62616c])],
  [([0x6469], [0x30333531]), ([0x656d616e], [0x2239325f6c6961745f31345f656761705f6b6369745f706f5f22]), ([0x657a697372646461], [0x6574756c6f736261]), ([0x65706f6373], [0x31]), ([0x666564], [0x3432312b343632312b3737352b3832]), ([0x6c6176], [0x443033357830]), ([0x676573], [0x30]), ([0x65707974], [0x62616c])],
  [([0x6469], [0x31333531]), ([0x656d616e], [0x2234335f6c6961745f31345f656761705f6b6369745f706f5f22]), ([0x657a697372646461], [0x6574756c6f736261]), ([0x65706f6373], [0x31]), ([0x666564], [0x3432312b3538342b3737352b3832]), ([0x666572], [0x3832]), ([0x6c6176], [0x413033357830]), ([0x676573], [0x30]), ([0x65707974], [0x62616c])],
  [([0x6469], [0x32333531]), ([0x656d616e], [0x2238335f6c6961745f31345f656761705f6b6369745f706f5f22]), ([0x657a697372646461], [0x6574756c6f736261]), ([0x65706f6373], [0x31]), ([0x666564], [0x3432312b3435352b3737352b3832]), ([0x666572], [0x3832]), ([0x6c6176], [0x373033357830]), ([0x676573], [0x30]), ([0x65707974], [0x62616c])],
  [([0x6469], [0x33333531]), ([0x656d616e], [0x2233345f6c6961745f31345f656761705f6b6369745f706f5f22]), ([0x657a697372646461], [0x6574756c6f736261]), ([0x65706f6373], [0x31]), ([0x666564], [0x3432312b383433312b3737352b3832]), ([0x666572], [0x3832]), ([0x6c6176], [0x343033357830]), ([0x676573], [0x30]), ([0x65707974], [0x62616c])],
  [([0x6469], [0x34333531]), ([0x656d616e], [0x2237345f6c6961745f31345f656761705f6b6369745f706f5f22]), ([0x657a697372646461], [0x6574756c6f736261]), ([0x65706f6373], [0x31]), ([0x666564], [0x3432312b3637372b3737352b3832]), ([0x6c6176], [0x313033357830]), ([0x676573], [0x30]), ([0x65707974], [0x62616c])],
  [([0x6469], [0x35333531]), ([0x656d616e], [0x2232355f6c6961745f31345f656761705f6b6369745f706f5f22]), ([0x657a697372646461], [0x6574756c6f736261]), ([0x65706f6373], [0x31]), ([0x666564], [0x3432312b3137362b3737352b3832]), ([0x666572], [0x3832]), ([0x6c6176], [0x454632357830]), ([0x676573], [0x30]), ([0x65707974], [0x62616c])]]

/-- player/iivision.dbg, sym lines 1536-1567 -/
def symLines48 : List (List (List Nat × List Nat)) := [
  [([0x6469], [0x36333531]), ([0x656d616e], [0x2236355f6c6961745f31345f656761705f6b6369745f706f5f22]), ([0x657a697372646461], [0x6574756c6f736261]), ([0x65706f6373], [0x31]), ([0x666564], [0x3432312b3839342b3737352b3832]), ([0x666572], [0x3832]), ([0x6c6176], [0x424632357830]), ([0x676573], [0x30]), ([0x65707974], [0x62616c])],
  [([0x6469], [0x37333531]), ([0x656d616e], [0x2230365f6c6961745f31345f656761705f6b6369745f706f5f22]), ([0x657a697372646461], [0x6574756c6f736261]), ([0x65706f6373], [0x31]), ([0x666564], [0x3432312b353632312b3737352b3832]), ([0x6c6176], [0x384632357830]), ([0x676573], [0x30]), ([0x65707974], [0x62616c])],
  [([0x6469], [0x38333531]), ([0x656d616e], [0x2231345f656761705f365f6b6369745f706f22]), ([0x657a697372646461], [0x6574756c6f736261]), ([0x65706f6373], [0x31]), ([0x666564], [0x3432382b3737352b3832]), ([0x6c6176], [0x464532357830]), ([0x676573], [0x30]), ([0x65707974], [0x62616c])],
  [([0x6469], [0x39333531]), ([0x656d616e], [0x22375f6c6961745f31345f656761705f6b6369745f706f5f22]), ([0x657a697372646461], [0x6574756c6f736261]), ([0x65706f6373], [0x31]), ([0x666564], [0x3432312b3330392b3337332b3832]), ([0x6c6176], [0x394532357830]), ([0x676573], [0x30]), ([0x65707974], [0x62616c])],
  [([0x6469], [0x30343531]), ([0x656d616e], [0x2231315f6c6961745f31345f656761705f6b6369745f706f5f22]), ([0x657a697372646461], [0x6574756c6f736261]), ([0x65706f6373], [0x31]), ([0x666564], [0x3432312b333732312b3337332b3832]), ([0x6c6176], [0x364532357830]), ([0x676573], [0x30]), ([0x65707974], [0x62616c])],
  [([0x6469], [0x31343531]), ([0x656d616e], [0x22706d6a5f31345f656761705f345f6b6369745f706f5f22]), ([0x657a697372646461], [0x6574756c6f736261]), ([0x65706f6373], [0x31]), ([0x666564], [0x3134322b3337332b3832]), ([0x666572], [0x38322b3832]), ([0x6c6176], [0x434532357830]), ([0x676573], [0x30]), ([0x65707974], [0x62616c])],
  [([0x6469], [0x32343531]), ([0x656d616e], [0x2235315f6c6961745f31345f656761705f6b6369745f706f5f22]), ([0x657a697372646461], [0x6574756c6f736261]), ([0x65706f6373], [0x31]), ([0x666564], [0x3432312b3538352b3337332b3832]), ([0x666572], [0x3832]), ([0x6c6176], [0x334532357830]), ([0x676573], [0x30]), ([0x65707974], [0x62616c])],
  [([0x6469], [0x33343531]), ([0x656d616e], [0x2239315f6c6961745f31345f656761705f6b6369745f706f5f22]), ([0x657a697372646461], [0x6574756c6f736261]), ([0x65706f6373], [0x31]), ([0x666564], [0x3432312b3737322b3337332b3832]), ([0x666572], [0x3832]), ([0x6c6176], [0x304532357830]), ([0x676573], [0x30]), ([0x65707974], [0x62616c])],
  [([0x6469], [0x34343531]), ([0x656d616e], [0x2234325f6c6961745f31345f656761705f6b6369745f706f5f22]), ([0x657a697372646461], [0x6574756c6f736261]), ([0x65706f6373], [0x31]), ([0x666564], [0x3432312b3831352b3337332b3832]), ([0x666572], [0x38322b3832]), ([0x6c6176], [0x444432357830]), ([0x676573], [0x30]), ([0x65707974], [0x62616c])],
  [([0x6469], [0x35343531]), ([0x656d616e], [0x2238325f6c6961745f31345f656761705f6b6369745f706f5f22]), ([0x657a697372646461], [0x6574756c6f736261]), ([0x65706f6373], [0x31]), ([0x666564], [0x3432312b3436312b3337332b3832]), ([0x666572], [0x3832]), ([0x6c6176], [0x414432357830]), ([0x676573], [0x30]), ([0x65707974], [0x62616c])],
  [([0x6469], [0x36343531]), ([0x656d616e], [0x2233335f6c6961745f31345f656761705f6b6369745f706f5f22]), ([0x657a697372646461], [0x6574756c6f736261]), ([0x65706f6373], [0x31]), ([0x666564], [0x3432312b3435312b3337332b3832]), ([0x666572], [0x3832]), ([0x6c6176], [0x374432357830]), ([0x676573], [0x30]), ([0x65707974], [0x62616c])],
  [([0x6469], [0x37343531]), ([0x656d616e], [0x2237335f6c6961745f31345f656761705f6b6369745f706f5f22]), ([0x657a697372646461], [0x6574756c6f736261]), ([0x65706f6373], [0x31]), ([0x666564], [0x3432312b373532312b3337332b3832]), ([0x666572], [0x3832]), ([0x6c6176], [0x344432357830]), ([0x676573], [0x30]), ([0x65707974], [0x62616c])],
  [([0x6469], [0x38343531]), ([0x656d616e], [0x2232345f6c6961745f31345f656761705f6b6369745f706f5f22]), ([0x657a697372646461], [0x6574756c6f736261]), ([0x65706f6373], [0x31]), ([0x666564], [0x3432312b323033312b3337332b3832]), ([0x666572], [0x38322b3832]), ([0x6c6176], [0x314432357830]), ([0x676573], [0x30]), ([0x65707974], [0x62616c])],
  [([0x6469], [0x39343531]), ([0x656d616e], [0x2236345f6c6961745f31345f656761705f6b6369745f706f5f22]), ([0x657a697372646461], [0x6574756c6f736261]), ([0x65706f6373], [0x31]), ([0x666564], [0x3432312b3530382b3337332b3832]), ([0x666572], [0x3832]), ([0x6c6176], [0x454332357830]), ([0x676573], [0x30]), ([0x65707974], [0x62616c])],
  [([0x6469], [0x30353531]), ([0x656d616e], [0x2231355f6c6961745f31345f656761705f6b6369745f706f5f22]), ([0x657a697372646461], [0x6574756c6f736261]), ([0x65706f6373], [0x31]), ([0x666564], [0x3432312b343231312b3337332b3832]), ([0x666572], [0x3832]), ([0x6c6176], [0x424332357830]), ([0x676573], [0x30]), ([0x65707974], [0x62616c])],
  [([0x6469], [0x31353531]), ([0x656d616e], [0x2235355f6c6961745f31345f656761705f6b6369745f706f5f22]), ([0x657a697372646461], [0x6574756c6f736261]), ([0x65706f6373], [0x31]), ([0x666564], [0x3432312b3332332b3337332b3832]), ([0x666572], [0x3832]), ([0x6c6176], [0x384332357830]), ([0x676573], [0x30]), ([0x65707974], [0x62616c])],
  [([0x6469], [0x32353531]), ([0x656d616e], [0x2239355f6c6961745f31345f656761705f6b6369745f706f5f22]), ([0x657a697372646461], [0x6574756c6f736261]), ([0x65706f6373], [0x31]), ([0x666564], [0x3432312b323431312b3337332b3832]), ([0x6c6176], [0x354332357830]), ([0x676573], [0x30]), ([0x65707974], [0x62616c])],
  [([0x6469], [0x33353531]), ([0x656d616e], [0x2231345f656761705f345f6b6369745f706f22]), ([0x657a697372646461], [0x6574756c6f736261]), ([0x65706f6373], [0x31]), ([0x666564], [0x323630312b3337332b3832]), ([0x6c6176], [0x424232357830]), ([0x676573], [0x30]), ([0x65707974], [0x62616c])],
  [([0x6469], [0x34353531]), ([0x656d616e], [0x22444022]), ([0x657a697372646461], [0x6574756c6f736261]), ([0x746e65726170], [0x35353531]), ([0x666564], [0x3435322b3833312b30]), ([0x666572], [0x302b30]), ([0x6c6176], [0x384232357830]), ([0x676573], [0x30]), ([0x65707974], [0x62616c])],
  [([0x6469], [0x35353531]), ([0x656d616e], [0x2230345f656761705f36365f6b6369745f706f22]), ([0x657a697372646461], [0x6574756c6f736261]), ([0x65706f6373], [0x31]), ([0x666564], [0x3739362b3833312b30]), ([0x6c6176], [0x373832357830]), ([0x676573], [0x30]), ([0x65707974], [0x62616c])],
  [([0x6469], [0x36353531]), ([0x656d616e], [0x22444022]), ([0x657a697372646461], [0x6574756c6f736261]), ([0x746e65726170], [0x37353531]), ([0x666564], [0x3030372b313030312b30]), ([0x666572], [0x302b30]), ([0x6c6176], [0x343832357830]), ([0x676573], [0x30]), ([0x65707974], [0x62616c])],
  [([0x6469], [0x37353531]), ([0x656d616e], [0x2230345f656761705f34365f6b6369745f706f22]), ([0x657a697372646461], [0x6574756c6f736261]), ([0x65706f6373], [0x31]), ([0x666564], [0x3937392b313030312b30]), ([0x6c6176], [0x333532357830]), ([0x676573], [0x30]), ([0x65707974], [0x62616c])],
  [([0x6469], [0x38353531]), ([0x656d616e], [0x22444022]), ([0x657a697372646461], [0x6574756c6f736261]), ([0x746e65726170], [0x39353531]), ([0x666564], [0x3033382b3436362b30]), ([0x666572], [0x302b30]), ([0x6c6176], [0x303532357830]), ([0x676573], [0x30]), ([0x65707974], [0x62616c])],
  [([0x6469], [0x39353531]), ([0x656d616e], [0x2230345f656761705f32365f6b6369745f706f22]), ([0x657a697372646461], [0x6574756c6f736261]), ([0x65706f6373], [0x31]), ([0x666564], [0x3236322b3436362b30]), ([0x6c6176], [0x463132357830]), ([0x676573], [0x30]), ([0x65707974], [0x62616c])],
  [([0x6469], [0x30363531]), ([0x656d616e], [0x22444022]), ([0x657a697372646461], [0x6574756c6f736261]), ([0x746e65726170], [0x31363531]), ([0x666564], [0x3332382b3937372b30]), ([0x666572], [0x302b30]), ([0x6c6176], [0x433132357830]), ([0x676573], [0x30]), ([0x65707974], [0x62616c])],
  [([0x6469], [0x31363531]), ([0x656d616e], [0x2230345f656761705f30365f6b6369745f706f22]), ([0x657a697372646461], [0x6574756c6f736261]), ([0x65706f6373], [0x31]), ([0x666564], [0x3532372b3937372b30]), ([0x6c6176], [0x424531357830]), ([0x676573], [0x30]), ([0x65707974], [0x62616c])],
  [([0x6469], [0x32363531]), ([0x656d616e], [0x22444022]), ([0x657a697372646461], [0x6574756c6f736261]), ([0x746e65726170], [0x33363531]), ([0x666564], [0x383831312b3031352b30]), ([0x666572], [0x302b30]), ([0x6c6176], [0x384531357830]), ([0x676573], [0x30]), ([0x65707974], [0x62616c])],
  [([0x6469], [0x33363531]), ([0x656d616e], [0x2230345f656761705f38355f6b6369745f706f22]), ([0x657a697372646461], [0x6574756c6f736261]), ([0x65706f6373], [0x31]), ([0x666564], [0x3638392b3031352b30]), ([0x6c6176], [0x374231357830]), ([0x676573], [0x30]), ([0x65707974], [0x62616c])],
  [([0x6469], [0x34363531]), ([0x656d616e], [0x22444022]), ([0x657a697372646461], [0x6574756c6f736261]), ([0x746e65726170], [0x35363531]), ([0x666564], [0x3130382b3430372b30]), ([0x666572], [0x302b30]), ([0x6c6176], [0x344231357830]), ([0x676573], [0x30]), ([0x65707974], [0x62616c])],
  [([0x6469], [0x35363531]), ([0x656d616e], [0x2230345f656761705f36355f6b6369745f706f22]), ([0x657a697372646461], [0x6574756c6f736261]), ([0x65706f6373], [0x31]), ([0x666564], [0x363832312b3430372b30]), ([0x6c6176], [0x333831357830]), ([0x676573], [0x30]), ([0x65707974], [0x62616c])],
  [([0x6469], [0x36363531]), ([0x656d616e], [0x22444022]), ([0x657a697372646461], [0x6574756c6f736261]), ([0x746e65726170], [0x37363531]), ([0x666564], [0x323230312b3132362b30]), ([0x666572], [0x302b30]), ([0x6c6176], [0x303831357830]), ([0x676573], [0x30]), ([0x65707974], [0x62616c])],
  [([0x6469], [0x37363531]), ([0x656d616e], [0x2230345f656761705f34355f6b6369745f706f22]), ([0x657a697372646461], [0x6574756c6f736261]), ([0x65706f6373], [0x31]), ([0x666564], [0x313032312b3132362b30]), ([0x6c6176], [0x463431357830]), ([0x676573], [0x30]), ([0x65707974], [0x62616c])]]

/-- player/iivision.dbg, sym lines 1568-1599 -/
def symLines49 : List (List (List Nat × List Nat)) := [
  [([0x6469], [0x38363531]), ([0x656d616e], [0x2230345f656761705f32355f6b6369745f706f22]), ([0x657a697372646461], [0x6574756c6f736261]), ([0x65706f6373], [0x31]), ([0x666564], [0x3335312b3438382b30]), ([0x6c6176], [0x343231357830]), ([0x676573], [0x30]), ([0x65707974], [0x62616c])],
  [([0x6469], [0x39363531]), ([0x656d616e], [0x2230345f656761705f30355f6b6369745f706f22]), ([0x657a697372646461], [0x6574756c6f736261]), ([0x65706f6373], [0x31]), ([0x666564], [0x3236392b3431312b30]), ([0x6c6176], [0x434630357830]), ([0x676573], [0x30]), ([0x65707974], [0x62616c])],
  [([0x6469], [0x30373531]), ([0x656d616e], [0x2230345f656761705f38345f6b6369745f706f22]), ([0x657a697372646461], [0x6574756c6f736261]), ([0x65706f6373], [0x31]), ([0x666564], [0x3933342b363230312b30]), ([0x6c6176], [0x334430357830]), ([0x676573], [0x30]), ([0x65707974], [0x62616c])],
  [([0x6469], [0x31373531]), ([0x656d616e], [0x2230345f656761705f36345f6b6369745f706f22]), ([0x657a697372646461], [0x6574756c6f736261]), ([0x65706f6373], [0x31]), ([0x666564], [0x343430312b3734362b30]), ([0x6c6176], [0x454130357830]), ([0x676573], [0x30]), ([0x65707974], [0x62616c])],
  [([0x6469], [0x32373531]), ([0x656d616e], [0x2230345f656761705f34345f6b6369745f706f22]), ([0x657a697372646461], [0x6574756c6f736261]), ([0x65706f6373], [0x31]), ([0x666564], [0x3634352b3836322b30]), ([0x6c6176], [0x383830357830]), ([0x676573], [0x30]), ([0x65707974], [0x62616c])],
  [([0x6469], [0x33373531]), ([0x656d616e], [0x2230345f656761705f32345f6b6369745f706f22]), ([0x657a697372646461], [0x6574756c6f736261]), ([0x65706f6373], [0x31]), ([0x666564], [0x37362b32362b30]), ([0x6c6176], [0x353630357830]), ([0x676573], [0x30]), ([0x65707974], [0x62616c])],
  [([0x6469], [0x34373531]), ([0x656d616e], [0x2230345f656761705f30345f6b6369745f706f22]), ([0x657a697372646461], [0x6574756c6f736261]), ([0x65706f6373], [0x31]), ([0x666564], [0x323232312b343131312b30]), ([0x6c6176], [0x323430357830]), ([0x676573], [0x30]), ([0x65707974], [0x62616c])],
  [([0x6469], [0x35373531]), ([0x656d616e], [0x2230345f656761705f38335f6b6369745f706f22]), ([0x657a697372646461], [0x6574756c6f736261]), ([0x65706f6373], [0x31]), ([0x666564], [0x353633312b3930362b30]), ([0x6c6176], [0x323230357830]), ([0x676573], [0x30]), ([0x65707974], [0x62616c])],
  [([0x6469], [0x36373531]), ([0x656d616e], [0x22444022]), ([0x657a697372646461], [0x6574756c6f736261]), ([0x746e65726170], [0x37373531]), ([0x666564], [0x333932312b363332312b30]), ([0x666572], [0x302b30]), ([0x6c6176], [0x463130357830]), ([0x676573], [0x30]), ([0x65707974], [0x62616c])],
  [([0x6469], [0x37373531]), ([0x656d616e], [0x2230345f656761705f36335f6b6369745f706f22]), ([0x657a697372646461], [0x6574756c6f736261]), ([0x65706f6373], [0x31]), ([0x666564], [0x3036382b363332312b30]), ([0x6c6176], [0x454546347830]), ([0x676573], [0x30]), ([0x65707974], [0x62616c])],
  [([0x6469], [0x38373531]), ([0x656d616e], [0x2230345f656761705f34335f6b6369745f706f22]), ([0x657a697372646461], [0x6574756c6f736261]), ([0x65706f6373], [0x31]), ([0x666564], [0x343030312b363330312b30]), ([0x6c6176], [0x384346347830]), ([0x676573], [0x30]), ([0x65707974], [0x62616c])],
  [([0x6469], [0x39373531]), ([0x656d616e], [0x2230345f656761705f32335f6b6369745f706f22]), ([0x657a697372646461], [0x6574756c6f736261]), ([0x65706f6373], [0x31]), ([0x666564], [0x3234362b393230312b30]), ([0x6c6176], [0x434146347830]), ([0x676573], [0x30]), ([0x65707974], [0x62616c])],
  [([0x6469], [0x30383531]), ([0x656d616e], [0x2230345f656761705f30335f6b6369745f706f22]), ([0x657a697372646461], [0x6574756c6f736261]), ([0x65706f6373], [0x31]), ([0x666564], [0x373330312b373130312b30]), ([0x6c6176], [0x463846347830]), ([0x676573], [0x30]), ([0x65707974], [0x62616c])],
  [([0x6469], [0x31383531]), ([0x656d616e], [0x2230345f656761705f38325f6b6369745f706f22]), ([0x657a697372646461], [0x6574756c6f736261]), ([0x65706f6373], [0x31]), ([0x666564], [0x3231322b3637312b30]), ([0x6c6176], [0x363746347830]), ([0x676573], [0x30]), ([0x65707974], [0x62616c])],
  [([0x6469], [0x32383531]), ([0x656d616e], [0x2230345f656761705f36325f6b6369745f706f22]), ([0x657a697372646461], [0x6574756c6f736261]), ([0x65706f6373], [0x31]), ([0x666564], [0x3038352b3831322b30]), ([0x6c6176], [0x433546347830]), ([0x676573], [0x30]), ([0x65707974], [0x62616c])],
  [([0x6469], [0x33383531]), ([0x656d616e], [0x2230345f656761705f34325f6b6369745f706f22]), ([0x657a697372646461], [0x6574756c6f736261]), ([0x65706f6373], [0x31]), ([0x666564], [0x3837362b333232312b30]), ([0x6c6176], [0x353446347830]), ([0x676573], [0x30]), ([0x65707974], [0x62616c])],
  [([0x6469], [0x34383531]), ([0x656d616e], [0x2230345f656761705f32325f6b6369745f706f22]), ([0x657a697372646461], [0x6574756c6f736261]), ([0x65706f6373], [0x31]), ([0x666564], [0x323931312b373033312b30]), ([0x6c6176], [0x453246347830]), ([0x676573], [0x30]), ([0x65707974], [0x62616c])],
  [([0x6469], [0x35383531]), ([0x656d616e], [0x2230345f656761705f30325f6b6369745f706f22]), ([0x657a697372646461], [0x6574756c6f736261]), ([0x65706f6373], [0x31]), ([0x666564], [0x32332b373732312b30]), ([0x6c6176], [0x413146347830]), ([0x676573], [0x30]), ([0x65707974], [0x62616c])],
  [([0x6469], [0x36383531]), ([0x656d616e], [0x22444022]), ([0x657a697372646461], [0x6574756c6f736261]), ([0x746e65726170], [0x37383531]), ([0x666564], [0x3430352b38392b30]), ([0x666572], [0x302b30]), ([0x6c6176], [0x373146347830]), ([0x676573], [0x30]), ([0x65707974], [0x62616c])],
  [([0x6469], [0x37383531]), ([0x656d616e], [0x2230345f656761705f38315f6b6369745f706f22]), ([0x657a697372646461], [0x6574756c6f736261]), ([0x65706f6373], [0x31]), ([0x666564], [0x323032312b38392b30]), ([0x6c6176], [0x364545347830]), ([0x676573], [0x30]), ([0x65707974], [0x62616c])],
  [([0x6469], [0x38383531]), ([0x656d616e], [0x2230345f656761705f36315f6b6369745f706f22]), ([0x657a697372646461], [0x6574756c6f736261]), ([0x65706f6373], [0x31]), ([0x666564], [0x3032382b3332392b30]), ([0x6c6176], [0x464345347830]), ([0x676573], [0x30]), ([0x65707974], [0x62616c])],
  [([0x6469], [0x39383531]), ([0x656d616e], [0x2230345f656761705f34315f6b6369745f706f22]), ([0x657a697372646461], [0x6574756c6f736261]), ([0x65706f6373], [0x31]), ([0x666564], [0x33312b3430332b30]), ([0x6c6176], [0x464245347830]), ([0x676573], [0x30]), ([0x65707974], [0x62616c])],
  [([0x6469], [0x30393531]), ([0x656d616e], [0x2230345f656761705f32315f6b6369745f706f22]), ([0x657a697372646461], [0x6574756c6f736261]), ([0x65706f6373], [0x31]), ([0x666564], [0x3736372b383431312b30]), ([0x6c6176], [0x454145347830]), ([0x676573], [0x30]), ([0x65707974], [0x62616c])],
  [([0x6469], [0x31393531]), ([0x656d616e], [0x2230345f656761705f30315f6b6369745f706f22]), ([0x657a697372646461], [0x6574756c6f736261]), ([0x65706f6373], [0x31]), ([0x666564], [0x3334392b3334372b30]), ([0x6c6176], [0x314145347830]), ([0x676573], [0x30]), ([0x65707974], [0x62616c])],
  [([0x6469], [0x32393531]), ([0x656d616e], [0x2230345f656761705f385f6b6369745f706f22]), ([0x657a697372646461], [0x6574756c6f736261]), ([0x65706f6373], [0x31]), ([0x666564], [0x3132382b3037332b30]), ([0x6c6176], [0x333945347830]), ([0x676573], [0x30]), ([0x65707974], [0x62616c])],
  [([0x6469], [0x33393531]), ([0x656d616e], [0x22385f6c6961745f30345f656761705f6b6369745f706f5f22]), ([0x657a697372646461], [0x6574756c6f736261]), ([0x65706f6373], [0x31]), ([0x666564], [0x3432312b3033362b3737352b30]), ([0x6c6176], [0x443845347830]), ([0x676573], [0x30]), ([0x65707974], [0x62616c])],
  [([0x6469], [0x34393531]), ([0x656d616e], [0x2232315f6c6961745f30345f656761705f6b6369745f706f5f22]), ([0x657a697372646461], [0x6574756c6f736261]), ([0x65706f6373], [0x31]), ([0x666564], [0x3432312b383430312b3737352b30]), ([0x666572], [0x30]), ([0x6c6176], [0x413845347830]), ([0x676573], [0x30]), ([0x65707974], [0x62616c])],
  [([0x6469], [0x35393531]), ([0x656d616e], [0x22706d6a5f30345f656761705f365f6b6369745f706f5f22]), ([0x657a697372646461], [0x6574756c6f736261]), ([0x65706f6373], [0x31]), ([0x666564], [0x3735372b3737352b30]), ([0x666572], [0x302b302b30]), ([0x6c6176], [0x303945347830]), ([0x676573], [0x30]), ([0x65707974], [0x62616c])],
  [([0x6469], [0x36393531]), ([0x656d616e], [0x2236315f6c6961745f30345f656761705f6b6369745f706f5f22]), ([0x657a697372646461], [0x6574756c6f736261]), ([0x65706f6373], [0x31]), ([0x666564], [0x3432312b3837312b3737352b30]), ([0x666572], [0x30]), ([0x6c6176], [0x373845347830]), ([0x676573], [0x30]), ([0x65707974], [0x62616c])],
  [([0x6469], [0x37393531]), ([0x656d616e], [0x2230325f6c6961745f30345f656761705f6b6369745f706f5f22]), ([0x657a697372646461], [0x6574756c6f736261]), ([0x65706f6373], [0x31]), ([0x666564], [0x3432312b3238362b3737352b30]), ([0x666572], [0x302b30]), ([0x6c6176], [0x343845347830]), ([0x676573], [0x30]), ([0x65707974], [0x62616c])],
  [([0x6469], [0x38393531]), ([0x656d616e], [0x2235325f6c6961745f30345f656761705f6b6369745f706f5f22]), ([0x657a697372646461], [0x6574756c6f736261]), ([0x65706f6373], [0x31]), ([0x666564], [0x3432312b353431312b3737352b30]), ([0x6c6176], [0x313845347830]), ([0x676573], [0x30]), ([0x65707974], [0x62616c])],
  [([0x6469], [0x39393531]), ([0x656d616e], [0x2239325f6c6961745f30345f656761705f6b6369745f706f5f22]), ([0x657a697372646461], [0x6574756c6f736261]), ([0x65706f6373], [0x31]), ([0x666564], [0x3432312b343632312b3737352b30]), ([0x6c6176], [0x453745347830]), ([0x676573], [0x30]), ([0x65707974], [0x62616c])]]

/-- player/iivision.dbg, sym lines 1600-1631 -/
def symLines50 : List (List (List Nat × List Nat)) := [
  [([0x6469], [0x30303631]), ([0x656d616e], [0x2234335f6c6961745f30345f656761705f6b6369745f706f5f22]), ([0x657a697372646461], [0x6574756c6f736261]), ([0x65706f6373], [0x31]), ([0x666564], [0x3432312b3538342b3737352b30]), ([0x666572], [0x30]), ([0x6c6176], [0x423745347830]), ([0x676573], [0x30]), ([0x65707974], [0x62616c])],
  [([0x6469], [0x31303631]), ([0x656d616e], [0x2238335f6c6961745f30345f656761705f6b6369745f706f5f22]), ([0x657a697372646461], [0x6574756c6f736261]), ([0x65706f6373], [0x31]), ([0x666564], [0x3432312b3435352b3737352b30]), ([0x666572], [0x30]), ([0x6c6176], [0x383745347830]), ([0x676573], [0x30]), ([0x65707974], [0x62616c])],
  [([0x6469], [0x32303631]), ([0x656d616e], [0x2233345f6c6961745f30345f656761705f6b6369745f706f5f22]), ([0x657a697372646461], [0x6574756c6f736261]), ([0x65706f6373], [0x31]), ([0x666564], [0x3432312b383433312b3737352b30]), ([0x666572], [0x30]), ([0x6c6176], [0x353745347830]), ([0x676573], [0x30]), ([0x65707974], [0x62616c])],
  [([0x6469], [0x33303631]), ([0x656d616e], [0x2237345f6c6961745f30345f656761705f6b6369745f706f5f22]), ([0x657a697372646461], [0x6574756c6f736261]), ([0x65706f6373], [0x31]), ([0x666564], [0x3432312b3637372b3737352b30]), ([0x6c6176], [0x323745347830]), ([0x676573], [0x30]), ([0x65707974], [0x62616c])],
  [([0x6469], [0x34303631]), ([0x656d616e], [0x2232355f6c6961745f30345f656761705f6b6369745f706f5f22]), ([0x657a697372646461], [0x6574756c6f736261]), ([0x65706f6373], [0x31]), ([0x666564], [0x3432312b3137362b3737352b30]), ([0x666572], [0x30]), ([0x6c6176], [0x463645347830]), ([0x676573], [0x30]), ([0x65707974], [0x62616c])],
  [([0x6469], [0x35303631]), ([0x656d616e], [0x2236355f6c6961745f30345f656761705f6b6369745f706f5f22]), ([0x657a697372646461], [0x6574756c6f736261]), ([0x65706f6373], [0x31]), ([0x666564], [0x3432312b3839342b3737352b30]), ([0x666572], [0x30]), ([0x6c6176], [0x433645347830]), ([0x676573], [0x30]), ([0x65707974], [0x62616c])],
  [([0x6469], [0x36303631]), ([0x656d616e], [0x2230365f6c6961745f30345f656761705f6b6369745f706f5f22]), ([0x657a697372646461], [0x6574756c6f736261]), ([0x65706f6373], [0x31]), ([0x666564], [0x3432312b353632312b3737352b30]), ([0x6c6176], [0x393645347830]), ([0x676573], [0x30]), ([0x65707974], [0x62616c])],
  [([0x6469], [0x37303631]), ([0x656d616e], [0x2230345f656761705f365f6b6369745f706f22]), ([0x657a697372646461], [0x6574756c6f736261]), ([0x65706f6373], [0x31]), ([0x666564], [0x3432382b3737352b30]), ([0x6c6176], [0x303645347830]), ([0x676573], [0x30]), ([0x65707974], [0x62616c])],
  [([0x6469], [0x38303631]), ([0x656d616e], [0x22375f6c6961745f30345f656761705f6b6369745f706f5f22]), ([0x657a697372646461], [0x6574756c6f736261]), ([0x65706f6373], [0x31]), ([0x666564], [0x3432312b3330392b3337332b30]), ([0x6c6176], [0x413545347830]), ([0x676573], [0x30]), ([0x65707974], [0x62616c])],
  [([0x6469], [0x39303631]), ([0x656d616e], [0x2231315f6c6961745f30345f656761705f6b6369745f706f5f22]), ([0x657a697372646461], [0x6574756c6f736261]), ([0x65706f6373], [0x31]), ([0x666564], [0x3432312b333732312b3337332b30]), ([0x6c6176], [0x373545347830]), ([0x676573], [0x30]), ([0x65707974], [0x62616c])],
  [([0x6469], [0x30313631]), ([0x656d616e], [0x22706d6a5f30345f656761705f345f6b6369745f706f5f22]), ([0x657a697372646461], [0x6574756c6f736261]), ([0x65706f6373], [0x31]), ([0x666564], [0x3134322b3337332b30]), ([0x666572], [0x302b30]), ([0x6c6176], [0x443545347830]), ([0x676573], [0x30]), ([0x65707974], [0x62616c])],
  [([0x6469], [0x31313631]), ([0x656d616e], [0x2235315f6c6961745f30345f656761705f6b6369745f706f5f22]), ([0x657a697372646461], [0x6574756c6f736261]), ([0x65706f6373], [0x31]), ([0x666564], [0x3432312b3538352b3337332b30]), ([0x666572], [0x30]), ([0x6c6176], [0x343545347830]), ([0x676573], [0x30]), ([0x65707974], [0x62616c])],
  [([0x6469], [0x32313631]), ([0x656d616e], [0x2239315f6c6961745f30345f656761705f6b6369745f706f5f22]), ([0x657a697372646461], [0x6574756c6f736261]), ([0x65706f6373], [0x31]), ([0x666564], [0x3432312b3737322b3337332b30]), ([0x666572], [0x30]), ([0x6c6176], [0x313545347830]), ([0x676573], [0x30]), ([0x65707974], [0x62616c])],
  [([0x6469], [0x33313631]), ([0x656d616e], [0x2234325f6c6961745f30345f656761705f6b6369745f706f5f22]), ([0x657a697372646461], [0x6574756c6f736261]), ([0x65706f6373], [0x31]), ([0x666564], [0x3432312b3831352b3337332b30]), ([0x666572], [0x302b30]), ([0x6c6176], [0x453445347830]), ([0x676573], [0x30]), ([0x65707974], [0x62616c])],
  [([0x6469], [0x34313631]), ([0x656d616e], [0x2238325f6c6961745f30345f656761705f6b6369745f706f5f22]), ([0x657a697372646461], [0x6574756c6f736261]), ([0x65706f6373], [0x31]), ([0x666564], [0x3432312b3436312b3337332b30]), ([0x666572], [0x30]), ([0x6c6176], [0x423445347830]), ([0x676573], [0x30]), ([0x65707974], [0x62616c])],
  [([0x6469], [0x35313631]), ([0x656d616e], [0x2233335f6c6961745f30345f656761705f6b6369745f706f5f22]), ([0x657a697372646461], [0x6574756c6f736261]), ([0x65706f6373], [0x31]), ([0x666564], [0x3432312b3435312b3337332b30]), ([0x666572], [0x30]), ([0x6c6176], [0x383445347830]), ([0x676573], [0x30]), ([0x65707974], [0x62616c])],
  [([0x6469], [0x36313631]), ([0x656d616e], [0x2237335f6c6961745f30345f656761705f6b6369745f706f5f22]), ([0x657a697372646461], [0x6574756c6f736261]), ([0x65706f6373], [0x31]), ([0x666564], [0x3432312b373532312b3337332b30]), ([0x666572], [0x30]), ([0x6c6176], [0x353445347830]), ([0x676573], [0x30]), ([0x65707974], [0x62616c])],
  [([0x6469], [0x37313631]), ([0x656d616e], [0x2232345f6c6961745f30345f656761705f6b6369745f706f5f22]), ([0x657a697372646461], [0x6574756c6f736261]), ([0x65706f6373], [0x31]), ([0x666564], [0x3432312b323033312b3337332b30]), ([0x666572], [0x302b30]), ([0x6c6176], [0x323445347830]), ([0x676573], [0x30]), ([0x65707974], [0x62616c])],
  [([0x6469], [0x38313631]), ([0x656d616e], [0x2236345f6c6961745f30345f656761705f6b6369745f706f5f22]), ([0x657a697372646461], [0x6574756c6f736261]), ([0x65706f6373], [0x31]), ([0x666564], [0x3432312b3530382b3337332b30]), ([0x666572], [0x30]), ([0x6c6176], [0x463345347830]), ([0x676573], [0x30]), ([0x65707974], [0x62616c])],
  [([0x6469], [0x39313631]), ([0x656d616e], [0x2231355f6c6961745f30345f656761705f6b6369745f706f5f22]), ([0x657a697372646461], [0x6574756c6f736261]), ([0x65706f6373], [0x31]), ([0x666564], [0x3432312b343231312b3337332b30]), ([0x666572], [0x30]), ([0x6c6176], [0x433345347830]), ([0x676573], [0x30]), ([0x65707974], [0x62616c])],
  [([0x6469], [0x30323631]), ([0x656d616e], [0x2235355f6c6961745f30345f656761705f6b6369745f706f5f22]), ([0x657a697372646461], [0x6574756c6f736261]), ([0x65706f6373], [0x31]), ([0x666564], [0x3432312b3332332b3337332b30]), ([0x666572], [0x30]), ([0x6c6176], [0x393345347830]), ([0x676573], [0x30]), ([0x65707974], [0x62616c])],
  [([0x6469], [0x31323631]), ([0x656d616e], [0x2239355f6c6961745f30345f656761705f6b6369745f706f5f22]), ([0x657a697372646461], [0x6574756c6f736261]), ([0x65706f6373], [0x31]), ([0x666564], [0x3432312b323431312b3337332b30]), ([0x6c6176], [0x363345347830]), ([0x676573], [0x30]), ([0x65707974], [0x62616c])],
  [([0x6469], [0x32323631]), ([0x656d616e], [0x2230345f656761705f345f6b6369745f706f22]), ([0x657a697372646461], [0x6574756c6f736261]), ([0x65706f6373], [0x31]), ([0x666564], [0x323630312b3337332b30]), ([0x6c6176], [0x433245347830]), ([0x676573], [0x30]), ([0x65707974], [0x62616c])],
  [([0x6469], [0x33323631]), ([0x656d616e], [0x22444022]), ([0x657a697372646461], [0x6574756c6f736261]), ([0x746e65726170], [0x34323631]), ([0x666564], [0x3435322b3833312b32383031]), ([0x666572], [0x323830312b32383031]), ([0x6c6176], [0x393245347830]), ([0x676573], [0x30]), ([0x65707974], [0x62616c])],
  [([0x6469], [0x34323631]), ([0x656d616e], [0x2239335f656761705f36365f6b6369745f706f22]), ([0x657a697372646461], [0x6574756c6f736261]), ([0x65706f6373], [0x31]), ([0x666564], [0x3739362b3833312b32383031]), ([0x6c6176], [0x384644347830]), ([0x676573], [0x30]), ([0x65707974], [0x62616c])],
  [([0x6469], [0x35323631]), ([0x656d616e], [0x22444022]), ([0x657a697372646461], [0x6574756c6f736261]), ([0x746e65726170], [0x36323631]), ([0x666564], [0x3030372b313030312b32383031]), ([0x666572], [0x323830312b32383031]), ([0x6c6176], [0x354644347830]), ([0x676573], [0x30]), ([0x65707974], [0x62616c])],
  [([0x6469], [0x36323631]), ([0x656d616e], [0x2239335f656761705f34365f6b6369745f706f22]), ([0x657a697372646461], [0x6574756c6f736261]), ([0x65706f6373], [0x31]), ([0x666564], [0x3937392b313030312b32383031]), ([0x6c6176], [0x344344347830]), ([0x676573], [0x30]), ([0x65707974], [0x62616c])],
  [([0x6469], [0x37323631]), ([0x656d616e], [0x22444022]), ([0x657a697372646461], [0x6574756c6f736261]), ([0x746e65726170], [0x38323631]), ([0x666564], [0x3033382b3436362b32383031]), ([0x666572], [0x323830312b32383031]), ([0x6c6176], [0x314344347830]), ([0x676573], [0x30]), ([0x65707974], [0x62616c])],
  [([0x6469], [0x38323631]), ([0x656d616e], [0x2239335f656761705f32365f6b6369745f706f22]), ([0x657a697372646461], [0x6574756c6f736261]), ([0x65706f6373], [0x31]), ([0x666564], [0x3236322b3436362b32383031]), ([0x6c6176], [0x303944347830]), ([0x676573], [0x30]), ([0x65707974], [0x62616c])],
  [([0x6469], [0x39323631]), ([0x656d616e], [0x22444022]), ([0x657a697372646461], [0x6574756c6f736261]), ([0x746e65726170], [0x30333631]), ([0x666564], [0x3332382b3937372b32383031]), ([0x666572], [0x323830312b32383031]), ([0x6c6176], [0x443844347830]), ([0x676573], [0x30]), ([0x65707974], [0x62616c])],
  [([0x6469], [0x30333631]), ([0x656d616e], [0x2239335f656761705f30365f6b6369745f706f22]), ([0x657a697372646461], [0x6574756c6f736261]), ([0x65706f6373], [0x31]), ([0x666564], [0x3532372b3937372b32383031]), ([0x6c6176], [0x433544347830]), ([0x676573], [0x30]), ([0x65707974], [0x62616c])],
  [([0x6469], [0x31333631]), ([0x656d616e], [0x22444022]), ([0x657a697372646461], [0x6574756c6f736261]), ([0x746e65726170], [0x32333631]), ([0x666564], [0x383831312b3031352b32383031]), ([0x666572], [0x323830312b32383031]), ([0x6c6176], [0x393544347830]), ([0x676573], [0x30]), ([0x65707974], [0x62616c])]]

/-- player/iivision.dbg, sym lines 1632-1663 -/
def symLines51 : List (List (List Nat × List Nat)) := [
  [([0x6469], [0x32333631]), ([0x656d616e], [0x2239335f656761705f38355f6b6369745f706f22]), ([0x657a697372646461], [0x6574756c6f736261]), ([0x65706f6373], [0x31]), ([0x666564], [0x3638392b3031352b32383031]), ([0x6c6176], [0x383244347830]), ([0x676573], [0x30]), ([0x65707974], [0x62616c])],
  [([0x6469], [0x33333631]), ([0x656d616e], [0x22444022]), ([0x657a697372646461], [0x6574756c6f736261]), ([0x746e65726170], [0x34333631]), ([0x666564], [0x3130382b3430372b32383031]), ([0x666572], [0x323830312b32383031]), ([0x6c6176], [0x353244347830]), ([0x676573], [0x30]), ([0x65707974], [0x62616c])],
  [([0x6469], [0x34333631]), ([0x656d616e], [0x2239335f656761705f36355f6b6369745f706f22]), ([0x657a697372646461], [0x6574756c6f736261]), ([0x65706f6373], [0x31]), ([0x666564], [0x363832312b3430372b32383031]), ([0x6c6176], [0x344643347830]), ([0x676573], [0x30]), ([0x65707974], [0x62616c])],
  [([0x6469], [0x35333631]), ([0x656d616e], [0x22444022]), ([0x657a697372646461], [0x6574756c6f736261]), ([0x746e65726170], [0x36333631]), ([0x666564], [0x323230312b3132362b32383031]), ([0x666572], [0x323830312b32383031]), ([0x6c6176], [0x314643347830]), ([0x676573], [0x30]), ([0x65707974], [0x62616c])],
  [([0x6469], [0x36333631]), ([0x656d616e], [0x2239335f656761705f34355f6b6369745f706f22]), ([0x657a697372646461], [0x6574756c6f736261]), ([0x65706f6373], [0x31]), ([0x666564], [0x313032312b3132362b32383031]), ([0x6c6176], [0x304343347830]), ([0x676573], [0x30]), ([0x65707974], [0x62616c])],
  [([0x6469], [0x37333631]), ([0x656d616e], [0x2239335f656761705f32355f6b6369745f706f22]), ([0x657a697372646461], [0x6574756c6f736261]), ([0x65706f6373], [0x31]), ([0x666564], [0x3335312b3438382b32383031]), ([0x6c6176], [0x353943347830]), ([0x676573], [0x30]), ([0x65707974], [0x62616c])],
  [([0x6469], [0x38333631]), ([0x656d616e], [0x2239335f656761705f30355f6b6369745f706f22]), ([0x657a697372646461], [0x6574756c6f736261]), ([0x65706f6373], [0x31]), ([0x666564], [0x3236392b3431312b32383031]), ([0x6c6176], [0x443643347830]), ([0x676573], [0x30]), ([0x65707974], [0x62616c])],
  [([0x6469], [0x39333631]), ([0x656d616e], [0x2239335f656761705f38345f6b6369745f706f22]), ([0x657a697372646461], [0x6574756c6f736261]), ([0x65706f6373], [0x31]), ([0x666564], [0x3933342b363230312b32383031]), ([0x6c6176], [0x343443347830]), ([0x676573], [0x30]), ([0x65707974], [0x62616c])],
  [([0x6469], [0x30343631]), ([0x656d616e], [0x2239335f656761705f36345f6b6369745f706f22]), ([0x657a697372646461], [0x6574756c6f736261]), ([0x65706f6373], [0x31]), ([0x666564], [0x343430312b3734362b32383031]), ([0x6c6176], [0x463143347830]), ([0x676573], [0x30]), ([0x65707974], [0x62616c])],
  [([0x6469], [0x31343631]), ([0x656d616e], [0x2239335f656761705f34345f6b6369745f706f22]), ([0x657a697372646461], [0x6574756c6f736261]), ([0x65706f6373], [0x31]), ([0x666564], [0x3634352b3836322b32383031]), ([0x6c6176], [0x394642347830]), ([0x676573], [0x30]), ([0x65707974], [0x62616c])],
  [([0x6469], [0x32343631]), ([0x656d616e], [0x2239335f656761705f32345f6b6369745f706f22]), ([0x657a697372646461], [0x6574756c6f736261]), ([0x65706f6373], [0x31]), ([0x666564], [0x37362b32362b32383031]), ([0x6c6176], [0x364442347830]), ([0x676573], [0x30]), ([0x65707974], [0x62616c])],
  [([0x6469], [0x33343631]), ([0x656d616e], [0x2239335f656761705f30345f6b6369745f706f22]), ([0x657a697372646461], [0x6574756c6f736261]), ([0x65706f6373], [0x31]), ([0x666564], [0x323232312b343131312b32383031]), ([0x6c6176], [0x334242347830]), ([0x676573], [0x30]), ([0x65707974], [0x62616c])],
  [([0x6469], [0x34343631]), ([0x656d616e], [0x2239335f656761705f38335f6b6369745f706f22]), ([0x657a697372646461], [0x6574756c6f736261]), ([0x65706f6373], [0x31]), ([0x666564], [0x353633312b3930362b32383031]), ([0x6c6176], [0x333942347830]), ([0x676573], [0x30]), ([0x65707974], [0x62616c])],
  [([0x6469], [0x35343631]), ([0x656d616e], [0x22444022]), ([0x657a697372646461], [0x6574756c6f736261]), ([0x746e65726170], [0x36343631]), ([0x666564], [0x333932312b363332312b32383031]), ([0x666572], [0x323830312b32383031]), ([0x6c6176], [0x303942347830]), ([0x676573], [0x30]), ([0x65707974], [0x62616c])],
  [([0x6469], [0x36343631]), ([0x656d616e], [0x2239335f656761705f36335f6b6369745f706f22]), ([0x657a697372646461], [0x6574756c6f736261]), ([0x65706f6373], [0x31]), ([0x666564], [0x3036382b363332312b32383031]), ([0x6c6176], [0x463542347830]), ([0x676573], [0x30]), ([0x65707974], [0x62616c])],
  [([0x6469], [0x37343631]), ([0x656d616e], [0x2239335f656761705f34335f6b6369745f706f22]), ([0x657a697372646461], [0x6574756c6f736261]), ([0x65706f6373], [0x31]), ([0x666564], [0x343030312b363330312b32383031]), ([0x6c6176], [0x393342347830]), ([0x676573], [0x30]), ([0x65707974], [0x62616c])],
  [([0x6469], [0x38343631]), ([0x656d616e], [0x2239335f656761705f32335f6b6369745f706f22]), ([0x657a697372646461], [0x6574756c6f736261]), ([0x65706f6373], [0x31]), ([0x666564], [0x3234362b393230312b32383031]), ([0x6c6176], [0x443142347830]), ([0x676573], [0x30]), ([0x65707974], [0x62616c])],
  [([0x6469], [0x39343631]), ([0x656d616e], [0x2239335f656761705f30335f6b6369745f706f22]), ([0x657a697372646461], [0x6574756c6f736261]), ([0x65706f6373], [0x31]), ([0x666564], [0x373330312b373130312b32383031]), ([0x6c6176], [0x303042347830]), ([0x676573], [0x30]), ([0x65707974], [0x62616c])],
  [([0x6469], [0x30353631]), ([0x656d616e], [0x2239335f656761705f38325f6b6369745f706f22]), ([0x657a697372646461], [0x6574756c6f736261]), ([0x65706f6373], [0x31]), ([0x666564], [0x3231322b3637312b32383031]), ([0x6c6176], [0x374541347830]), ([0x676573], [0x30]), ([0x65707974], [0x62616c])],
  [([0x6469], [0x31353631]), ([0x656d616e], [0x2239335f656761705f36325f6b6369745f706f22]), ([0x657a697372646461], [0x6574756c6f736261]), ([0x65706f6373], [0x31]), ([0x666564], [0x3038352b3831322b32383031]), ([0x6c6176], [0x444341347830]), ([0x676573], [0x30]), ([0x65707974], [0x62616c])],
  [([0x6469], [0x32353631]), ([0x656d616e], [0x2239335f656761705f34325f6b6369745f706f22]), ([0x657a697372646461], [0x6574756c6f736261]), ([0x65706f6373], [0x31]), ([0x666564], [0x3837362b333232312b32383031]), ([0x6c6176], [0x364241347830]), ([0x676573], [0x30]), ([0x65707974], [0x62616c])],
  [([0x6469], [0x33353631]), ([0x656d616e], [0x2239335f656761705f32325f6b6369745f706f22]), ([0x657a697372646461], [0x6574756c6f736261]), ([0x65706f6373], [0x31]), ([0x666564], [0x323931312b373033312b32383031]), ([0x6c6176], [0x463941347830]), ([0x676573], [0x30]), ([0x65707974], [0x62616c])],
  [([0x6469], [0x34353631]), ([0x656d616e], [0x2239335f656761705f30325f6b6369745f706f22]), ([0x657a697372646461], [0x6574756c6f736261]), ([0x65706f6373], [0x31]), ([0x666564], [0x32332b373732312b32383031]), ([0x6c6176], [0x423841347830]), ([0x676573], [0x30]), ([0x65707974], [0x62616c])],
  [([0x6469], [0x35353631]), ([0x656d616e], [0x22444022]), ([0x657a697372646461], [0x6574756c6f736261]), ([0x746e65726170], [0x36353631]), ([0x666564], [0x3430352b38392b32383031]), ([0x666572], [0x323830312b32383031]), ([0x6c6176], [0x383841347830]), ([0x676573], [0x30]), ([0x65707974], [0x62616c])],
  [([0x6469], [0x36353631]), ([0x656d616e], [0x2239335f656761705f38315f6b6369745f706f22]), ([0x657a697372646461], [0x6574756c6f736261]), ([0x65706f6373], [0x31]), ([0x666564], [0x323032312b38392b32383031]), ([0x6c6176], [0x373541347830]), ([0x676573], [0x30]), ([0x65707974], [0x62616c])],
  [([0x6469], [0x37353631]), ([0x656d616e], [0x2239335f656761705f36315f6b6369745f706f22]), ([0x657a697372646461], [0x6574756c6f736261]), ([0x65706f6373], [0x31]), ([0x666564], [0x3032382b3332392b32383031]), ([0x6c6176], [0x303441347830]), ([0x676573], [0x30]), ([0x65707974], [0x62616c])],
  [([0x6469], [0x38353631]), ([0x656d616e], [0x2239335f656761705f34315f6b6369745f706f22]), ([0x657a697372646461], [0x6574756c6f736261]), ([0x65706f6373], [0x31]), ([0x666564], [0x33312b3430332b32383031]), ([0x6c6176], [0x303341347830]), ([0x676573], [0x30]), ([0x65707974], [0x62616c])],
  [([0x6469], [0x39353631]), ([0x656d616e], [0x2239335f656761705f32315f6b6369745f706f22]), ([0x657a697372646461], [0x6574756c6f736261]), ([0x65706f6373], [0x31]), ([0x666564], [0x3736372b383431312b32383031]), ([0x6c6176], [0x463141347830]), ([0x676573], [0x30]), ([0x65707974], [0x62616c])],
  [([0x6469], [0x30363631]), ([0x656d616e], [0x2239335f656761705f30315f6b6369745f706f22]), ([0x657a697372646461], [0x6574756c6f736261]), ([0x65706f6373], [0x31]), ([0x666564], [0x3334392b3334372b32383031]), ([0x6c6176], [0x323141347830]), ([0x676573], [0x30]), ([0x65707974], [0x62616c])],
  [([0x6469], [0x31363631]), ([0x656d616e], [0x2239335f656761705f385f6b6369745f706f22]), ([0x657a697372646461], [0x6574756c6f736261]), ([0x65706f6373], [0x31]), ([0x666564], [0x3132382b3037332b32383031]), ([0x6c6176], [0x343041347830]), ([0x676573], [0x30]), ([0x65707974], [0x62616c])],
  [([0x6469], [0x32363631]), ([0x656d616e], [0x22385f6c6961745f39335f656761705f6b6369745f706f5f22]), ([0x657a697372646461], [0x6574756c6f736261]), ([0x65706f6373], [0x31]), ([0x666564], [0x3432312b3033362b3737352b32383031]), ([0x6c6176], [0x454639347830]), ([0x676573], [0x30]), ([0x65707974], [0x62616c])],
  [([0x6469], [0x33363631]), ([0x656d616e], [0x2232315f6c6961745f39335f656761705f6b6369745f706f5f22]), ([0x657a697372646461], [0x6574756c6f736261]), ([0x65706f6373], [0x31]), ([0x666564], [0x3432312b383430312b3737352b32383031]), ([0x666572], [0x32383031]), ([0x6c6176], [0x424639347830]), ([0x676573], [0x30]), ([0x65707974], [0x62616c])]]

/-- player/iivision.dbg, sym lines 1664-1695 -/
def symLines52 : List (List (List Nat × List Nat)) := [
  [([0x6469], [0x34363631]), ([0x656d616e], [0x22706d6a5f39335f656761705f365f6b6369745f706f5f22]), ([0x657a697372646461], [0x6574756c6f736261]), ([0x65706f6373], [0x31]), ([0x666564], [0x3735372b3737352b32383031]), ([0x666572], [0x323830312b323830312b32383031]), ([0x6c6176], [0x313041347830]), ([0x676573], [0x30]), ([0x65707974], [0x62616c])],
  [([0x6469], [0x35363631]), ([0x656d616e], [0x2236315f6c6961745f39335f656761705f6b6369745f706f5f22]), ([0x657a697372646461], [0x6574756c6f736261]), ([0x65706f6373], [0x31]), ([0x666564], [0x3432312b3837312b3737352b32383031]), ([0x666572], [0x32383031]), ([0x6c6176], [0x384639347830]), ([0x676573], [0x30]), ([0x65707974], [0x62616c])],
  [([0x6469], [0x36363631]), ([0x656d616e], [0x2230325f6c6961745f39335f656761705f6b6369745f706f5f22]), ([0x657a697372646461], [0x6574756c6f736261]), ([0x65706f6373], [0x31]), ([0x666564], [0x3432312b3238362b3737352b32383031]), ([0x666572], [0x323830312b32383031]), ([0x6c6176], [0x354639347830]), ([0x676573], [0x30]), ([0x65707974], [0x62616c])],
  [([0x6469], [0x37363631]), ([0x656d616e], [0x2235325f6c6961745f39335f656761705f6b6369745f706f5f22]), ([0x657a697372646461], [0x6574756c6f736261]), ([0x65706f6373], [0x31]), ([0x666564], [0x3432312b353431312b3737352b32383031]), ([0x6c6176], [0x324639347830]), ([0x676573], [0x30]), ([0x65707974], [0x62616c])],
  [([0x6469], [0x38363631]), ([0x656d616e], [0x2239325f6c6961745f39335f656761705f6b6369745f706f5f22]), ([0x657a697372646461], [0x6574756c6f736261]), ([0x65706f6373], [0x31]), ([0x666564], [0x3432312b343632312b3737352b32383031]), ([0x6c6176], [0x464539347830]), ([0x676573], [0x30]), ([0x65707974], [0x62616c])],
  [([0x6469], [0x39363631]), ([0x656d616e], [0x2234335f6c6961745f39335f656761705f6b6369745f706f5f22]), ([0x657a697372646461], [0x6574756c6f736261]), ([0x65706f6373], [0x31]), ([0x666564], [0x3432312b3538342b3737352b32383031]), ([0x666572], [0x32383031]), ([0x6c6176], [0x434539347830]), ([0x676573], [0x30]), ([0x65707974], [0x62616c])],
  [([0x6469], [0x30373631]), ([0x656d616e], [0x2238335f6c6961745f39335f656761705f6b6369745f706f5f22]), ([0x657a697372646461], [0x6574756c6f736261]), ([0x65706f6373], [0x31]), ([0x666564], [0x3432312b3435352b3737352b32383031]), ([0x666572], [0x32383031]), ([0x6c6176], [0x394539347830]), ([0x676573], [0x30]), ([0x65707974], [0x62616c])],
  [([0x6469], [0x31373631]), ([0x656d616e], [0x2233345f6c6961745f39335f656761705f6b6369745f706f5f22]), ([0x657a697372646461], [0x6574756c6f736261]), ([0x65706f6373], [0x31]), ([0x666564], [0x3432312b383433312b3737352b32383031]), ([0x666572], [0x32383031]), ([0x6c6176], [0x364539347830]), ([0x676573], [0x30]), ([0x65707974], [0x62616c])],
  [([0x6469], [0x32373631]), ([0x656d616e], [0x2237345f6c6961745f39335f656761705f6b6369745f706f5f22]), ([0x657a697372646461], [0x6574756c6f736261]), ([0x65706f6373], [0x31]), ([0x666564], [0x3432312b3637372b3737352b32383031]), ([0x6c6176], [0x334539347830]), ([0x676573], [0x30]), ([0x65707974], [0x62616c])],
  [([0x6469], [0x33373631]), ([0x656d616e], [0x2232355f6c6961745f39335f656761705f6b6369745f706f5f22]), ([0x657a697372646461], [0x6574756c6f736261]), ([0x65706f6373], [0x31]), ([0x666564], [0x3432312b3137362b3737352b32383031]), ([0x666572], [0x32383031]), ([0x6c6176], [0x304539347830]), ([0x676573], [0x30]), ([0x65707974], [0x62616c])],
  [([0x6469], [0x34373631]), ([0x656d616e], [0x2236355f6c6961745f39335f656761705f6b6369745f706f5f22]), ([0x657a697372646461], [0x6574756c6f736261]), ([0x65706f6373], [0x31]), ([0x666564], [0x3432312b3839342b3737352b32383031]), ([0x666572], [0x32383031]), ([0x6c6176], [0x444439347830]), ([0x676573], [0x30]), ([0x65707974], [0x62616c])],
  [([0x6469], [0x35373631]), ([0x656d616e], [0x2230365f6c6961745f39335f656761705f6b6369745f706f5f22]), ([0x657a697372646461], [0x6574756c6f736261]), ([0x65706f6373], [0x31]), ([0x666564], [0x3432312b353632312b3737352b32383031]), ([0x6c6176], [0x414439347830]), ([0x676573], [0x30]), ([0x65707974], [0x62616c])],
  [([0x6469], [0x36373631]), ([0x656d616e], [0x2239335f656761705f365f6b6369745f706f22]), ([0x657a697372646461], [0x6574756c6f736261]), ([0x65706f6373], [0x31]), ([0x666564], [0x3432382b3737352b32383031]), ([0x6c6176], [0x314439347830]), ([0x676573], [0x30]), ([0x65707974], [0x62616c])],
  [([0x6469], [0x37373631]), ([0x656d616e], [0x22375f6c6961745f39335f656761705f6b6369745f706f5f22]), ([0x657a697372646461], [0x6574756c6f736261]), ([0x65706f6373], [0x31]), ([0x666564], [0x3432312b3330392b3337332b32383031]), ([0x6c6176], [0x424339347830]), ([0x676573], [0x30]), ([0x65707974], [0x62616c])],
  [([0x6469], [0x38373631]), ([0x656d616e], [0x2231315f6c6961745f39335f656761705f6b6369745f706f5f22]), ([0x657a697372646461], [0x6574756c6f736261]), ([0x65706f6373], [0x31]), ([0x666564], [0x3432312b333732312b3337332b32383031]), ([0x6c6176], [0x384339347830]), ([0x676573], [0x30]), ([0x65707974], [0x62616c])],
  [([0x6469], [0x39373631]), ([0x656d616e], [0x22706d6a5f39335f656761705f345f6b6369745f706f5f22]), ([0x657a697372646461], [0x6574756c6f736261]), ([0x65706f6373], [0x31]), ([0x666564], [0x3134322b3337332b32383031]), ([0x666572], [0x323830312b32383031]), ([0x6c6176], [0x454339347830]), ([0x676573], [0x30]), ([0x65707974], [0x62616c])],
  [([0x6469], [0x30383631]), ([0x656d616e], [0x2235315f6c6961745f39335f656761705f6b6369745f706f5f22]), ([0x657a697372646461], [0x6574756c6f736261]), ([0x65706f6373], [0x31]), ([0x666564], [0x3432312b3538352b3337332b32383031]), ([0x666572], [0x32383031]), ([0x6c6176], [0x354339347830]), ([0x676573], [0x30]), ([0x65707974], [0x62616c])],
  [([0x6469], [0x31383631]), ([0x656d616e], [0x2239315f6c6961745f39335f656761705f6b6369745f706f5f22]), ([0x657a697372646461], [0x6574756c6f736261]), ([0x65706f6373], [0x31]), ([0x666564], [0x3432312b3737322b3337332b32383031]), ([0x666572], [0x32383031]), ([0x6c6176], [0x324339347830]), ([0x676573], [0x30]), ([0x65707974], [0x62616c])],
  [([0x6469], [0x32383631]), ([0x656d616e], [0x2234325f6c6961745f39335f656761705f6b6369745f706f5f22]), ([0x657a697372646461], [0x6574756c6f736261]), ([0x65706f6373], [0x31]), ([0x666564], [0x3432312b3831352b3337332b32383031]), ([0x666572], [0x323830312b32383031]), ([0x6c6176], [0x464239347830]), ([0x676573], [0x30]), ([0x65707974], [0x62616c])],
  [([0x6469], [0x33383631]), ([0x656d616e], [0x2238325f6c6961745f39335f656761705f6b6369745f706f5f22]), ([0x657a697372646461], [0x6574756c6f736261]), ([0x65706f6373], [0x31]), ([0x666564], [0x3432312b3436312b3337332b32383031]), ([0x666572], [0x32383031]), ([0x6c6176], [0x434239347830]), ([0x676573], [0x30]), ([0x65707974], [0x62616c])],
  [([0x6469], [0x34383631]), ([0x656d616e], [0x2233335f6c6961745f39335f656761705f6b6369745f706f5f22]), ([0x657a697372646461], [0x6574756c6f736261]), ([0x65706f6373], [0x31]), ([0x666564], [0x3432312b3435312b3337332b32383031]), ([0x666572], [0x32383031]), ([0x6c6176], [0x394239347830]), ([0x676573], [0x30]), ([0x65707974], [0x62616c])],
  [([0x6469], [0x35383631]), ([0x656d616e], [0x2237335f6c6961745f39335f656761705f6b6369745f706f5f22]), ([0x657a697372646461], [0x6574756c6f736261]), ([0x65706f6373], [0x31]), ([0x666564], [0x3432312b373532312b3337332b32383031]), ([0x666572], [0x32383031]), ([0x6c6176], [0x364239347830]), ([0x676573], [0x30]), ([0x65707974], [0x62616c])],
  [([0x6469], [0x36383631]), ([0x656d616e], [0x2232345f6c6961745f39335f656761705f6b6369745f706f5f22]), ([0x657a697372646461], [0x6574756c6f736261]), ([0x65706f6373], [0x31]), ([0x666564], [0x3432312b323033312b3337332b32383031]), ([0x666572], [0x323830312b32383031]), ([0x6c6176], [0x334239347830]), ([0x676573], [0x30]), ([0x65707974], [0x62616c])],
  [([0x6469], [0x37383631]), ([0x656d616e], [0x2236345f6c6961745f39335f656761705f6b6369745f706f5f22]), ([0x657a697372646461], [0x6574756c6f736261]), ([0x65706f6373], [0x31]), ([0x666564], [0x3432312b3530382b3337332b32383031]), ([0x666572], [0x32383031]), ([0x6c6176], [0x304239347830]), ([0x676573], [0x30]), ([0x65707974], [0x62616c])],
  [([0x6469], [0x38383631]), ([0x656d616e], [0x2231355f6c6961745f39335f656761705f6b6369745f706f5f22]), ([0x657a697372646461], [0x6574756c6f736261]), ([0x65706f6373], [0x31]), ([0x666564], [0x3432312b343231312b3337332b32383031]), ([0x666572], [0x32383031]), ([0x6c6176], [0x444139347830]), ([0x676573], [0x30]), ([0x65707974], [0x62616c])],
  [([0x6469], [0x39383631]), ([0x656d616e], [0x2235355f6c6961745f39335f656761705f6b6369745f706f5f22]), ([0x657a697372646461], [0x6574756c6f736261]), ([0x65706f6373], [0x31]), ([0x666564], [0x3432312b3332332b3337332b32383031]), ([0x666572], [0x32383031]), ([0x6c6176], [0x414139347830]), ([0x676573], [0x30]), ([0x65707974], [0x62616c])],
  [([0x6469], [0x30393631]), ([0x656d616e], [0x2239355f6c6961745f39335f656761705f6b6369745f706f5f22]), ([0x657a697372646461], [0x6574756c6f736261]), ([0x65706f6373], [0x31]), ([0x666564], [0x3432312b323431312b3337332b32383031]), ([0x6c6176], [0x374139347830]), ([0x676573], [0x30]), ([0x65707974], [0x62616c])],
  [([0x6469], [0x31393631]), ([0x656d616e], [0x2239335f656761705f345f6b6369745f706f22]), ([0x657a697372646461], [0x6574756c6f736261]), ([0x65706f6373], [0x31]), ([0x666564], [0x323630312b3337332b32383031]), ([0x6c6176], [0x443939347830]), ([0x676573], [0x30]), ([0x65707974], [0x62616c])],
  [([0x6469], [0x32393631]), ([0x656d616e], [0x22444022]), ([0x657a697372646461], [0x6574756c6f736261]), ([0x746e65726170], [0x33393631]), ([0x666564], [0x3435322b3833312b31363231]), ([0x666572], [0x313632312b31363231]), ([0x6c6176], [0x413939347830]), ([0x676573], [0x30]), ([0x65707974], [0x62616c])],
  [([0x6469], [0x33393631]), ([0x656d616e], [0x2238335f656761705f36365f6b6369745f706f22]), ([0x657a697372646461], [0x6574756c6f736261]), ([0x65706f6373], [0x31]), ([0x666564], [0x3739362b3833312b31363231]), ([0x6c6176], [0x393639347830]), ([0x676573], [0x30]), ([0x65707974], [0x62616c])],
  [([0x6469], [0x34393631]), ([0x656d616e], [0x22444022]), ([0x657a697372646461], [0x6574756c6f736261]), ([0x746e65726170], [0x35393631]), ([0x666564], [0x3030372b313030312b31363231]), ([0x666572], [0x313632312b31363231]), ([0x6c6176], [0x363639347830]), ([0x676573], [0x30]), ([0x65707974], [0x62616c])],
  [([0x6469], [0x35393631]), ([0x656d616e], [0x2238335f656761705f34365f6b6369745f706f22]), ([0x657a697372646461], [0x6574756c6f736261]), ([0x65706f6373], [0x31]), ([0x666564], [0x3937392b313030312b31363231]), ([0x6c6176], [0x353339347830]), ([0x676573], [0x30]), ([0x65707974], [0x62616c])]]

/-- player/iivision.dbg, sym lines 1696-1727 -/
def symLines53 : List (List (List Nat × List Nat)) := [
  [([0x6469], [0x36393631]), ([0x656d616e], [0x22444022]), ([0x657a697372646461], [0x6574756c6f736261]), ([0x746e65726170], [0x37393631]), ([0x666564], [0x3033382b3436362b31363231]), ([0x666572], [0x313632312b31363231]), ([0x6c6176], [0x323339347830]), ([0x676573], [0x30]), ([0x65707974], [0x62616c])],
  [([0x6469], [0x37393631]), ([0x656d616e], [0x2238335f656761705f32365f6b6369745f706f22]), ([0x657a697372646461], [0x6574756c6f736261]), ([0x65706f6373], [0x31]), ([0x666564], [0x3236322b3436362b31363231]), ([0x6c6176], [0x313039347830]), ([0x676573], [0x30]), ([0x65707974], [0x62616c])],
  [([0x6469], [0x38393631]), ([0x656d616e], [0x22444022]), ([0x657a697372646461], [0x6574756c6f736261]), ([0x746e65726170], [0x39393631]), ([0x666564], [0x3332382b3937372b31363231]), ([0x666572], [0x313632312b31363231]), ([0x6c6176], [0x454638347830]), ([0x676573], [0x30]), ([0x65707974], [0x62616c])],
  [([0x6469], [0x39393631]), ([0x656d616e], [0x2238335f656761705f30365f6b6369745f706f22]), ([0x657a697372646461], [0x6574756c6f736261]), ([0x65706f6373], [0x31]), ([0x666564], [0x3532372b3937372b31363231]), ([0x6c6176], [0x444338347830]), ([0x676573], [0x30]), ([0x65707974], [0x62616c])],
  [([0x6469], [0x30303731]), ([0x656d616e], [0x22444022]), ([0x657a697372646461], [0x6574756c6f736261]), ([0x746e65726170], [0x31303731]), ([0x666564], [0x383831312b3031352b31363231]), ([0x666572], [0x313632312b31363231]), ([0x6c6176], [0x414338347830]), ([0x676573], [0x30]), ([0x65707974], [0x62616c])],
  [([0x6469], [0x31303731]), ([0x656d616e], [0x2238335f656761705f38355f6b6369745f706f22]), ([0x657a697372646461], [0x6574756c6f736261]), ([0x65706f6373], [0x31]), ([0x666564], [0x3638392b3031352b31363231]), ([0x6c6176], [0x393938347830]), ([0x676573], [0x30]), ([0x65707974], [0x62616c])],
  [([0x6469], [0x32303731]), ([0x656d616e], [0x22444022]), ([0x657a697372646461], [0x6574756c6f736261]), ([0x746e65726170], [0x33303731]), ([0x666564], [0x3130382b3430372b31363231]), ([0x666572], [0x313632312b31363231]), ([0x6c6176], [0x363938347830]), ([0x676573], [0x30]), ([0x65707974], [0x62616c])],
  [([0x6469], [0x33303731]), ([0x656d616e], [0x2238335f656761705f36355f6b6369745f706f22]), ([0x657a697372646461], [0x6574756c6f736261]), ([0x65706f6373], [0x31]), ([0x666564], [0x363832312b3430372b31363231]), ([0x6c6176], [0x353638347830]), ([0x676573], [0x30]), ([0x65707974], [0x62616c])],
  [([0x6469], [0x34303731]), ([0x656d616e], [0x22444022]), ([0x657a697372646461], [0x6574756c6f736261]), ([0x746e65726170], [0x35303731]), ([0x666564], [0x323230312b3132362b31363231]), ([0x666572], [0x313632312b31363231]), ([0x6c6176], [0x323638347830]), ([0x676573], [0x30]), ([0x65707974], [0x62616c])],
  [([0x6469], [0x35303731]), ([0x656d616e], [0x2238335f656761705f34355f6b6369745f706f22]), ([0x657a697372646461], [0x6574756c6f736261]), ([0x65706f6373], [0x31]), ([0x666564], [0x313032312b3132362b31363231]), ([0x6c6176], [0x313338347830]), ([0x676573], [0x30]), ([0x65707974], [0x62616c])],
  [([0x6469], [0x36303731]), ([0x656d616e], [0x2238335f656761705f32355f6b6369745f706f22]), ([0x657a697372646461], [0x6574756c6f736261]), ([0x65706f6373], [0x31]), ([0x666564], [0x3335312b3438382b31363231]), ([0x6c6176], [0x363038347830]), ([0x676573], [0x30]), ([0x65707974], [0x62616c])],
  [([0x6469], [0x37303731]), ([0x656d616e], [0x2238335f656761705f30355f6b6369745f706f22]), ([0x657a697372646461], [0x6574756c6f736261]), ([0x65706f6373], [0x31]), ([0x666564], [0x3236392b3431312b31363231]), ([0x6c6176], [0x454437347830]), ([0x676573], [0x30]), ([0x65707974], [0x62616c])],
  [([0x6469], [0x38303731]), ([0x656d616e], [0x2238335f656761705f38345f6b6369745f706f22]), ([0x657a697372646461], [0x6574756c6f736261]), ([0x65706f6373], [0x31]), ([0x666564], [0x3933342b363230312b31363231]), ([0x6c6176], [0x354237347830]), ([0x676573], [0x30]), ([0x65707974], [0x62616c])],
  [([0x6469], [0x39303731]), ([0x656d616e], [0x2238335f656761705f36345f6b6369745f706f22]), ([0x657a697372646461], [0x6574756c6f736261]), ([0x65706f6373], [0x31]), ([0x666564], [0x343430312b3734362b31363231]), ([0x6c6176], [0x303937347830]), ([0x676573], [0x30]), ([0x65707974], [0x62616c])],
  [([0x6469], [0x30313731]), ([0x656d616e], [0x2238335f656761705f34345f6b6369745f706f22]), ([0x657a697372646461], [0x6574756c6f736261]), ([0x65706f6373], [0x31]), ([0x666564], [0x3634352b3836322b31363231]), ([0x6c6176], [0x413637347830]), ([0x676573], [0x30]), ([0x65707974], [0x62616c])],
  [([0x6469], [0x31313731]), ([0x656d616e], [0x2238335f656761705f32345f6b6369745f706f22]), ([0x657a697372646461], [0x6574756c6f736261]), ([0x65706f6373], [0x31]), ([0x666564], [0x37362b32362b31363231]), ([0x6c6176], [0x373437347830]), ([0x676573], [0x30]), ([0x65707974], [0x62616c])],
  [([0x6469], [0x32313731]), ([0x656d616e], [0x2238335f656761705f30345f6b6369745f706f22]), ([0x657a697372646461], [0x6574756c6f736261]), ([0x65706f6373], [0x31]), ([0x666564], [0x323232312b343131312b31363231]), ([0x6c6176], [0x343237347830]), ([0x676573], [0x30]), ([0x65707974], [0x62616c])],
  [([0x6469], [0x33313731]), ([0x656d616e], [0x2238335f656761705f38335f6b6369745f706f22]), ([0x657a697372646461], [0x6574756c6f736261]), ([0x65706f6373], [0x31]), ([0x666564], [0x353633312b3930362b31363231]), ([0x6c6176], [0x343037347830]), ([0x676573], [0x30]), ([0x65707974], [0x62616c])],
  [([0x6469], [0x34313731]), ([0x656d616e], [0x22444022]), ([0x657a697372646461], [0x6574756c6f736261]), ([0x746e65726170], [0x35313731]), ([0x666564], [0x333932312b363332312b31363231]), ([0x666572], [0x313632312b31363231]), ([0x6c6176], [0x313037347830]), ([0x676573], [0x30]), ([0x65707974], [0x62616c])],
  [([0x6469], [0x35313731]), ([0x656d616e], [0x2238335f656761705f36335f6b6369745f706f22]), ([0x657a697372646461], [0x6574756c6f736261]), ([0x65706f6373], [0x31]), ([0x666564], [0x3036382b363332312b31363231]), ([0x6c6176], [0x304436347830]), ([0x676573], [0x30]), ([0x65707974], [0x62616c])],
  [([0x6469], [0x36313731]), ([0x656d616e], [0x2238335f656761705f34335f6b6369745f706f22]), ([0x657a697372646461], [0x6574756c6f736261]), ([0x65706f6373], [0x31]), ([0x666564], [0x343030312b363330312b31363231]), ([0x6c6176], [0x414136347830]), ([0x676573], [0x30]), ([0x65707974], [0x62616c])],
  [([0x6469], [0x37313731]), ([0x656d616e], [0x2238335f656761705f32335f6b6369745f706f22]), ([0x657a697372646461], [0x6574756c6f736261]), ([0x65706f6373], [0x31]), ([0x666564], [0x3234362b393230312b31363231]), ([0x6c6176], [0x453836347830]), ([0x676573], [0x30]), ([0x65707974], [0x62616c])],
  [([0x6469], [0x38313731]), ([0x656d616e], [0x2238335f656761705f30335f6b6369745f706f22]), ([0x657a697372646461], [0x6574756c6f736261]), ([0x65706f6373], [0x31]), ([0x666564], [0x373330312b373130312b31363231]), ([0x6c6176], [0x313736347830]), ([0x676573], [0x30]), ([0x65707974], [0x62616c])],
  [([0x6469], [0x39313731]), ([0x656d616e], [0x2238335f656761705f38325f6b6369745f706f22]), ([0x657a697372646461], [0x6574756c6f736261]), ([0x65706f6373], [0x31]), ([0x666564], [0x3231322b3637312b31363231]), ([0x6c6176], [0x383536347830]), ([0x676573], [0x30]), ([0x65707974], [0x62616c])],
  [([0x6469], [0x30323731]), ([0x656d616e], [0x2238335f656761705f36325f6b6369745f706f22]), ([0x657a697372646461], [0x6574756c6f736261]), ([0x65706f6373], [0x31]), ([0x666564], [0x3038352b3831322b31363231]), ([0x6c6176], [0x453336347830]), ([0x676573], [0x30]), ([0x65707974], [0x62616c])],
  [([0x6469], [0x31323731]), ([0x656d616e], [0x2238335f656761705f34325f6b6369745f706f22]), ([0x657a697372646461], [0x6574756c6f736261]), ([0x65706f6373], [0x31]), ([0x666564], [0x3837362b333232312b31363231]), ([0x6c6176], [0x373236347830]), ([0x676573], [0x30]), ([0x65707974], [0x62616c])],
  [([0x6469], [0x32323731]), ([0x656d616e], [0x2238335f656761705f32325f6b6369745f706f22]), ([0x657a697372646461], [0x6574756c6f736261]), ([0x65706f6373], [0x31]), ([0x666564], [0x323931312b373033312b31363231]), ([0x6c6176], [0x303136347830]), ([0x676573], [0x30]), ([0x65707974], [0x62616c])],
  [([0x6469], [0x33323731]), ([0x656d616e], [0x2238335f656761705f30325f6b6369745f706f22]), ([0x657a697372646461], [0x6574756c6f736261]), ([0x65706f6373], [0x31]), ([0x666564], [0x32332b373732312b31363231]), ([0x6c6176], [0x434635347830]), ([0x676573], [0x30]), ([0x65707974], [0x62616c])],
  [([0x6469], [0x34323731]), ([0x656d616e], [0x22444022]), ([0x657a697372646461], [0x6574756c6f736261]), ([0x746e65726170], [0x35323731]), ([0x666564], [0x3430352b38392b31363231]), ([0x666572], [0x313632312b31363231]), ([0x6c6176], [0x394635347830]), ([0x676573], [0x30]), ([0x65707974], [0x62616c])],
  [([0x6469], [0x35323731]), ([0x656d616e], [0x2238335f656761705f38315f6b6369745f706f22]), ([0x657a697372646461], [0x6574756c6f736261]), ([0x65706f6373], [0x31]), ([0x666564], [0x323032312b38392b31363231]), ([0x6c6176], [0x384335347830]), ([0x676573], [0x30]), ([0x65707974], [0x62616c])],
  [([0x6469], [0x36323731]), ([0x656d616e], [0x2238335f656761705f36315f6b6369745f706f22]), ([0x657a697372646461], [0x6574756c6f736261]), ([0x65706f6373], [0x31]), ([0x666564], [0x3032382b3332392b31363231]), ([0x6c6176], [0x314235347830]), ([0x676573], [0x30]), ([0x65707974], [0x62616c])],
  [([0x6469], [0x37323731]), ([0x656d616e], [0x2238335f656761705f34315f6b6369745f706f22]), ([0x657a697372646461], [0x6574756c6f736261]), ([0x65706f6373], [0x31]), ([0x666564], [0x33312b3430332b31363231]), ([0x6c6176], [0x314135347830]), ([0x676573], [0x30]), ([0x65707974], [0x62616c])]]

/-- player/iivision.dbg, sym lines 1728-1759 -/
def symLines54 : List (List (List Nat × List Nat)) := [
  [([0x6469], [0x38323731]), ([0x656d616e], [0x2238335f656761705f32315f6b6369745f706f22]), ([0x657a697372646461], [0x6574756c6f736261]), ([0x65706f6373], [0x31]), ([0x666564], [0x3736372b383431312b31363231]), ([0x6c6176], [0x303935347830]), ([0x676573], [0x30]), ([0x65707974], [0x62616c])],
  [([0x6469], [0x39323731]), ([0x656d616e], [0x2238335f656761705f30315f6b6369745f706f22]), ([0x657a697372646461], [0x6574756c6f736261]), ([0x65706f6373], [0x31]), ([0x666564], [0x3334392b3334372b31363231]), ([0x6c6176], [0x333835347830]), ([0x676573], [0x30]), ([0x65707974], [0x62616c])],
  [([0x6469], [0x30333731]), ([0x656d616e], [0x2238335f656761705f385f6b6369745f706f22]), ([0x657a697372646461], [0x6574756c6f736261]), ([0x65706f6373], [0x31]), ([0x666564], [0x3132382b3037332b31363231]), ([0x6c6176], [0x353735347830]), ([0x676573], [0x30]), ([0x65707974], [0x62616c])],
  [([0x6469], [0x31333731]), ([0x656d616e], [0x22385f6c6961745f38335f656761705f6b6369745f706f5f22]), ([0x657a697372646461], [0x6574756c6f736261]), ([0x65706f6373], [0x31]), ([0x666564], [0x3432312b3033362b3737352b31363231]), ([0x6c6176], [0x463635347830]), ([0x676573], [0x30]), ([0x65707974], [0x62616c])],
  [([0x6469], [0x32333731]), ([0x656d616e], [0x2232315f6c6961745f38335f656761705f6b6369745f706f5f22]), ([0x657a697372646461], [0x6574756c6f736261]), ([0x65706f6373], [0x31]), ([0x666564], [0x3432312b383430312b3737352b31363231]), ([0x666572], [0x31363231]), ([0x6c6176], [0x433635347830]), ([0x676573], [0x30]), ([0x65707974], [0x62616c])],
  [([0x6469], [0x33333731]), ([0x656d616e], [0x22706d6a5f38335f656761705f365f6b6369745f706f5f22]), ([0x657a697372646461], [0x6574756c6f736261]), ([0x65706f6373], [0x31]), ([0x666564], [0x3735372b3737352b31363231]), ([0x666572], [0x313632312b313632312b31363231]), ([0x6c6176], [0x323735347830]), ([0x676573], [0x30]), ([0x65707974], [0x62616c])],
  [([0x6469], [0x34333731]), ([0x656d616e], [0x2236315f6c6961745f38335f656761705f6b6369745f706f5f22]), ([0x657a697372646461], [0x6574756c6f736261]), ([0x65706f6373], [0x31]), ([0x666564], [0x3432312b3837312b3737352b31363231]), ([0x666572], [0x31363231]), ([0x6c6176], [0x393635347830]), ([0x676573], [0x30]), ([0x65707974], [0x62616c])],
  [([0x6469], [0x35333731]), ([0x656d616e], [0x2230325f6c6961745f38335f656761705f6b6369745f706f5f22]), ([0x657a697372646461], [0x6574756c6f736261]), ([0x65706f6373], [0x31]), ([0x666564], [0x3432312b3238362b3737352b31363231]), ([0x666572], [0x313632312b31363231]), ([0x6c6176], [0x363635347830]), ([0x676573], [0x30]), ([0x65707974], [0x62616c])],
  [([0x6469], [0x36333731]), ([0x656d616e], [0x2235325f6c6961745f38335f656761705f6b6369745f706f5f22]), ([0x657a697372646461], [0x6574756c6f736261]), ([0x65706f6373], [0x31]), ([0x666564], [0x3432312b353431312b3737352b31363231]), ([0x6c6176], [0x333635347830]), ([0x676573], [0x30]), ([0x65707974], [0x62616c])],
  [([0x6469], [0x37333731]), ([0x656d616e], [0x2239325f6c6961745f38335f656761705f6b6369745f706f5f22]), ([0x657a697372646461], [0x6574756c6f736261]), ([0x65706f6373], [0x31]), ([0x666564], [0x3432312b343632312b3737352b31363231]), ([0x6c6176], [0x303635347830]), ([0x676573], [0x30]), ([0x65707974], [0x62616c])],
  [([0x6469], [0x38333731]), ([0x656d616e], [0x2234335f6c6961745f38335f656761705f6b6369745f706f5f22]), ([0x657a697372646461], [0x6574756c6f736261]), ([0x65706f6373], [0x31]), ([0x666564], [0x3432312b3538342b3737352b31363231]), ([0x666572], [0x31363231]), ([0x6c6176], [0x443535347830]), ([0x676573], [0x30]), ([0x65707974], [0x62616c])],
  [([0x6469], [0x39333731]), ([0x656d616e], [0x2238335f6c6961745f38335f656761705f6b6369745f706f5f22]), ([0x657a697372646461], [0x6574756c6f736261]), ([0x65706f6373], [0x31]), ([0x666564], [0x3432312b3435352b3737352b31363231]), ([0x666572], [0x31363231]), ([0x6c6176], [0x413535347830]), ([0x676573], [0x30]), ([0x65707974], [0x62616c])],
  [([0x6469], [0x30343731]), ([0x656d616e], [0x2233345f6c6961745f38335f656761705f6b6369745f706f5f22]), ([0x657a697372646461], [0x6574756c6f736261]), ([0x65706f6373], [0x31]), ([0x666564], [0x3432312b383433312b3737352b31363231]), ([0x666572], [0x31363231]), ([0x6c6176], [0x373535347830]), ([0x676573], [0x30]), ([0x65707974], [0x62616c])],
  [([0x6469], [0x31343731]), ([0x656d616e], [0x2237345f6c6961745f38335f656761705f6b6369745f706f5f22]), ([0x657a697372646461], [0x6574756c6f736261]), ([0x65706f6373], [0x31]), ([0x666564], [0x3432312b3637372b3737352b31363231]), ([0x6c6176], [0x343535347830]), ([0x676573], [0x30]), ([0x65707974], [0x62616c])],
  [([0x6469], [0x32343731]), ([0x656d616e], [0x2232355f6c6961745f38335f656761705f6b6369745f706f5f22]), ([0x657a697372646461], [0x6574756c6f736261]), ([0x65706f6373], [0x31]), ([0x666564], [0x3432312b3137362b3737352b31363231]), ([0x666572], [0x31363231]), ([0x6c6176], [0x313535347830]), ([0x676573], [0x30]), ([0x65707974], [0x62616c])],
  [([0x6469], [0x33343731]), ([0x656d616e], [0x2236355f6c6961745f38335f656761705f6b6369745f706f5f22]), ([0x657a697372646461], [0x6574756c6f736261]), ([0x65706f6373], [0x31]), ([0x666564], [0x3432312b3839342b3737352b31363231]), ([0x666572], [0x31363231]), ([0x6c6176], [0x453435347830]), ([0x676573], [0x30]), ([0x65707974], [0x62616c])],
  [([0x6469], [0x34343731]), ([0x656d616e], [0x2230365f6c6961745f38335f656761705f6b6369745f706f5f22]), ([0x657a697372646461], [0x6574756c6f736261]), ([0x65706f6373], [0x31]), ([0x666564], [0x3432312b353632312b3737352b31363231]), ([0x6c6176], [0x423435347830]), ([0x676573], [0x30]), ([0x65707974], [0x62616c])],
  [([0x6469], [0x35343731]), ([0x656d616e], [0x2238335f656761705f365f6b6369745f706f22]), ([0x657a697372646461], [0x6574756c6f736261]), ([0x65706f6373], [0x31]), ([0x666564], [0x3432382b3737352b31363231]), ([0x6c6176], [0x323435347830]), ([0x676573], [0x30]), ([0x65707974], [0x62616c])],
  [([0x6469], [0x36343731]), ([0x656d616e], [0x22375f6c6961745f38335f656761705f6b6369745f706f5f22]), ([0x657a697372646461], [0x6574756c6f736261]), ([0x65706f6373], [0x31]), ([0x666564], [0x3432312b3330392b3337332b31363231]), ([0x6c6176], [0x433335347830]), ([0x676573], [0x30]), ([0x65707974], [0x62616c])],
  [([0x6469], [0x37343731]), ([0x656d616e], [0x2231315f6c6961745f38335f656761705f6b6369745f706f5f22]), ([0x657a697372646461], [0x6574756c6f736261]), ([0x65706f6373], [0x31]), ([0x666564], [0x3432312b333732312b3337332b31363231]), ([0x6c6176], [0x393335347830]), ([0x676573], [0x30]), ([0x65707974], [0x62616c])],
  [([0x6469], [0x38343731]), ([0x656d616e], [0x22706d6a5f38335f656761705f345f6b6369745f706f5f22]), ([0x657a697372646461], [0x6574756c6f736261]), ([0x65706f6373], [0x31]), ([0x666564], [0x3134322b3337332b31363231]), ([0x666572], [0x313632312b31363231]), ([0x6c6176], [0x463335347830]), ([0x676573], [0x30]), ([0x65707974], [0x62616c])],
  [([0x6469], [0x39343731]), ([0x656d616e], [0x2235315f6c6961745f38335f656761705f6b6369745f706f5f22]), ([0x657a697372646461], [0x6574756c6f736261]), ([0x65706f6373], [0x31]), ([0x666564], [0x3432312b3538352b3337332b31363231]), ([0x666572], [0x31363231]), ([0x6c6176], [0x363335347830]), ([0x676573], [0x30]), ([0x65707974], [0x62616c])],
  [([0x6469], [0x30353731]), ([0x656d616e], [0x2239315f6c6961745f38335f656761705f6b6369745f706f5f22]), ([0x657a697372646461], [0x6574756c6f736261]), ([0x65706f6373], [0x31]), ([0x666564], [0x3432312b3737322b3337332b31363231]), ([0x666572], [0x31363231]), ([0x6c6176], [0x333335347830]), ([0x676573], [0x30]), ([0x65707974], [0x62616c])],
  [([0x6469], [0x31353731]), ([0x656d616e], [0x2234325f6c6961745f38335f656761705f6b6369745f706f5f22]), ([0x657a697372646461], [0x6574756c6f736261]), ([0x65706f6373], [0x31]), ([0x666564], [0x3432312b3831352b3337332b31363231]), ([0x666572], [0x313632312b31363231]), ([0x6c6176], [0x303335347830]), ([0x676573], [0x30]), ([0x65707974], [0x62616c])],
  [([0x6469], [0x32353731]), ([0x656d616e], [0x2238325f6c6961745f38335f656761705f6b6369745f706f5f22]), ([0x657a697372646461], [0x6574756c6f736261]), ([0x65706f6373], [0x31]), ([0x666564], [0x3432312b3436312b3337332b31363231]), ([0x666572], [0x31363231]), ([0x6c6176], [0x443235347830]), ([0x676573], [0x30]), ([0x65707974], [0x62616c])],
  [([0x6469], [0x33353731]), ([0x656d616e], [0x2233335f6c6961745f38335f656761705f6b6369745f706f5f22]), ([0x657a697372646461], [0x6574756c6f736261]), ([0x65706f6373], [0x31]), ([0x666564], [0x3432312b3435312b3337332b31363231]), ([0x666572], [0x31363231]), ([0x6c6176], [0x413235347830]), ([0x676573], [0x30]), ([0x65707974], [0x62616c])],
  [([0x6469], [0x34353731]), ([0x656d616e], [0x2237335f6c6961745f38335f656761705f6b6369745f706f5f22]), ([0x657a697372646461], [0x6574756c6f736261]), ([0x65706f6373], [0x31]), ([0x666564], [0x3432312b373532312b3337332b31363231]), ([0x666572], [0x31363231]), ([0x6c6176], [0x373235347830]), ([0x676573], [0x30]), ([0x65707974], [0x62616c])],
  [([0x6469], [0x35353731]), ([0x656d616e], [0x2232345f6c6961745f38335f656761705f6b6369745f706f5f22]), ([0x657a697372646461], [0x6574756c6f736261]), ([0x65706f6373], [0x31]), ([0x666564], [0x3432312b323033312b3337332b31363231]), ([0x666572], [0x313632312b31363231]), ([0x6c6176], [0x343235347830]), ([0x676573], [0x30]), ([0x65707974], [0x62616c])],
  [([0x6469], [0x36353731]), ([0x656d616e], [0x2236345f6c6961745f38335f656761705f6b6369745f706f5f22]), ([0x657a697372646461], [0x6574756c6f736261]), ([0x65706f6373], [0x31]), ([0x666564], [0x3432312b3530382b3337332b31363231]), ([0x666572], [0x31363231]), ([0x6c6176], [0x313235347830]), ([0x676573], [0x30]), ([0x65707974], [0x62616c])],
  [([0x6469], [0x37353731]), ([0x656d616e], [0x2231355f6c6961745f38335f656761705f6b6369745f706f5f22]), ([0x657a697372646461], [0x6574756c6f736261]), ([0x65706f6373], [0x31]), ([0x666564], [0x3432312b343231312b3337332b31363231]), ([0x666572], [0x31363231]), ([0x6c6176], [0x453135347830]), ([0x676573], [0x30]), ([0x65707974], [0x62616c])],
  [([0x6469], [0x38353731]), ([0x656d616e], [0x2235355f6c6961745f38335f656761705f6b6369745f706f5f22]), ([0x657a697372646461], [0x6574756c6f736261]), ([0x65706f6373], [0x31]), ([0x666564], [0x3432312b3332332b3337332b31363231]), ([0x666572], [0x31363231]), ([0x6c6176], [0x423135347830]), ([0x676573], [0x30]), ([0x65707974], [0x62616c])],
  [([0x6469], [0x39353731]), ([0x656d616e], [0x2239355f6c6961745f38335f656761705f6b6369745f706f5f22]), ([0x657a697372646461], [0x6574756c6f736261]), ([0x65706f6373], [0x31]), ([0x666564], [0x3432312b323431312b3337332b31363231]), ([0x6c6176], [0x383135347830]), ([0x676573], [0x30]), ([0x65707974], [0x62616c])]]

/-- player/iivision.dbg, sym lines 1760-1791 -/
def symLines55 : List (List (List Nat × List Nat)) := [
  [([0x6469], [0x30363731]), ([0x656d616e], [0x2238335f656761705f345f6b6369745f706f22]), ([0x657a697372646461], [0x6574756c6f736261]), ([0x65706f6373], [0x31]), ([0x666564], [0x323630312b3337332b31363231]), ([0x6c6176], [0x453035347830]), ([0x676573], [0x30]), ([0x65707974], [0x62616c])],
  [([0x6469], [0x31363731]), ([0x656d616e], [0x22444022]), ([0x657a697372646461], [0x6574756c6f736261]), ([0x746e65726170], [0x32363731]), ([0x666564], [0x3435322b3833312b383738]), ([0x666572], [0x3837382b383738]), ([0x6c6176], [0x423035347830]), ([0x676573], [0x30]), ([0x65707974], [0x62616c])],
  [([0x6469], [0x32363731]), ([0x656d616e], [0x2237335f656761705f36365f6b6369745f706f22]), ([0x657a697372646461], [0x6574756c6f736261]), ([0x65706f6373], [0x31]), ([0x666564], [0x3739362b3833312b383738]), ([0x6c6176], [0x414434347830]), ([0x676573], [0x30]), ([0x65707974], [0x62616c])],
  [([0x6469], [0x33363731]), ([0x656d616e], [0x22444022]), ([0x657a697372646461], [0x6574756c6f736261]), ([0x746e65726170], [0x34363731]), ([0x666564], [0x3030372b313030312b383738]), ([0x666572], [0x3837382b383738]), ([0x6c6176], [0x374434347830]), ([0x676573], [0x30]), ([0x65707974], [0x62616c])],
  [([0x6469], [0x34363731]), ([0x656d616e], [0x2237335f656761705f34365f6b6369745f706f22]), ([0x657a697372646461], [0x6574756c6f736261]), ([0x65706f6373], [0x31]), ([0x666564], [0x3937392b313030312b383738]), ([0x6c6176], [0x364134347830]), ([0x676573], [0x30]), ([0x65707974], [0x62616c])],
  [([0x6469], [0x35363731]), ([0x656d616e], [0x22444022]), ([0x657a697372646461], [0x6574756c6f736261]), ([0x746e65726170], [0x36363731]), ([0x666564], [0x3033382b3436362b383738]), ([0x666572], [0x3837382b383738]), ([0x6c6176], [0x334134347830]), ([0x676573], [0x30]), ([0x65707974], [0x62616c])],
  [([0x6469], [0x36363731]), ([0x656d616e], [0x2237335f656761705f32365f6b6369745f706f22]), ([0x657a697372646461], [0x6574756c6f736261]), ([0x65706f6373], [0x31]), ([0x666564], [0x3236322b3436362b383738]), ([0x6c6176], [0x323734347830]), ([0x676573], [0x30]), ([0x65707974], [0x62616c])],
  [([0x6469], [0x37363731]), ([0x656d616e], [0x22444022]), ([0x657a697372646461], [0x6574756c6f736261]), ([0x746e65726170], [0x38363731]), ([0x666564], [0x3332382b3937372b383738]), ([0x666572], [0x3837382b383738]), ([0x6c6176], [0x463634347830]), ([0x676573], [0x30]), ([0x65707974], [0x62616c])],
  [([0x6469], [0x38363731]), ([0x656d616e], [0x2237335f656761705f30365f6b6369745f706f22]), ([0x657a697372646461], [0x6574756c6f736261]), ([0x65706f6373], [0x31]), ([0x666564], [0x3532372b3937372b383738]), ([0x6c6176], [0x453334347830]), ([0x676573], [0x30]), ([0x65707974], [0x62616c])],
  [([0x6469], [0x39363731]), ([0x656d616e], [0x22444022]), ([0x657a697372646461], [0x6574756c6f736261]), ([0x746e65726170], [0x30373731]), ([0x666564], [0x383831312b3031352b383738]), ([0x666572], [0x3837382b383738]), ([0x6c6176], [0x423334347830]), ([0x676573], [0x30]), ([0x65707974], [0x62616c])],
  [([0x6469], [0x30373731]), ([0x656d616e], [0x2237335f656761705f38355f6b6369745f706f22]), ([0x657a697372646461], [0x6574756c6f736261]), ([0x65706f6373], [0x31]), ([0x666564], [0x3638392b3031352b383738]), ([0x6c6176], [0x413034347830]), ([0x676573], [0x30]), ([0x65707974], [0x62616c])],
  [([0x6469], [0x31373731]), ([0x656d616e], [0x22444022]), ([0x657a697372646461], [0x6574756c6f736261]), ([0x746e65726170], [0x32373731]), ([0x666564], [0x3130382b3430372b383738]), ([0x666572], [0x3837382b383738]), ([0x6c6176], [0x373034347830]), ([0x676573], [0x30]), ([0x65707974], [0x62616c])],
  [([0x6469], [0x32373731]), ([0x656d616e], [0x2237335f656761705f36355f6b6369745f706f22]), ([0x657a697372646461], [0x6574756c6f736261]), ([0x65706f6373], [0x31]), ([0x666564], [0x363832312b3430372b383738]), ([0x6c6176], [0x364433347830]), ([0x676573], [0x30]), ([0x65707974], [0x62616c])],
  [([0x6469], [0x33373731]), ([0x656d616e], [0x22444022]), ([0x657a697372646461], [0x6574756c6f736261]), ([0x746e65726170], [0x34373731]), ([0x666564], [0x323230312b3132362b383738]), ([0x666572], [0x3837382b383738]), ([0x6c6176], [0x334433347830]), ([0x676573], [0x30]), ([0x65707974], [0x62616c])],
  [([0x6469], [0x34373731]), ([0x656d616e], [0x2237335f656761705f34355f6b6369745f706f22]), ([0x657a697372646461], [0x6574756c6f736261]), ([0x65706f6373], [0x31]), ([0x666564], [0x313032312b3132362b383738]), ([0x6c6176], [0x324133347830]), ([0x676573], [0x30]), ([0x65707974], [0x62616c])],
  [([0x6469], [0x35373731]), ([0x656d616e], [0x2237335f656761705f32355f6b6369745f706f22]), ([0x657a697372646461], [0x6574756c6f736261]), ([0x65706f6373], [0x31]), ([0x666564], [0x3335312b3438382b383738]), ([0x6c6176], [0x373733347830]), ([0x676573], [0x30]), ([0x65707974], [0x62616c])],
  [([0x6469], [0x36373731]), ([0x656d616e], [0x2237335f656761705f30355f6b6369745f706f22]), ([0x657a697372646461], [0x6574756c6f736261]), ([0x65706f6373], [0x31]), ([0x666564], [0x3236392b3431312b383738]), ([0x6c6176], [0x463433347830]), ([0x676573], [0x30]), ([0x65707974], [0x62616c])],
  [([0x6469], [0x37373731]), ([0x656d616e], [0x2237335f656761705f38345f6b6369745f706f22]), ([0x657a697372646461], [0x6574756c6f736261]), ([0x65706f6373], [0x31]), ([0x666564], [0x3933342b363230312b383738]), ([0x6c6176], [0x363233347830]), ([0x676573], [0x30]), ([0x65707974], [0x62616c])],
  [([0x6469], [0x38373731]), ([0x656d616e], [0x2237335f656761705f36345f6b6369745f706f22]), ([0x657a697372646461], [0x6574756c6f736261]), ([0x65706f6373], [0x31]), ([0x666564], [0x343430312b3734362b383738]), ([0x6c6176], [0x313033347830]), ([0x676573], [0x30]), ([0x65707974], [0x62616c])],
  [([0x6469], [0x39373731]), ([0x656d616e], [0x2237335f656761705f34345f6b6369745f706f22]), ([0x657a697372646461], [0x6574756c6f736261]), ([0x65706f6373], [0x31]), ([0x666564], [0x3634352b3836322b383738]), ([0x6c6176], [0x424432347830]), ([0x676573], [0x30]), ([0x65707974], [0x62616c])],
  [([0x6469], [0x30383731]), ([0x656d616e], [0x2237335f656761705f32345f6b6369745f706f22]), ([0x657a697372646461], [0x6574756c6f736261]), ([0x65706f6373], [0x31]), ([0x666564], [0x37362b32362b383738]), ([0x6c6176], [0x384232347830]), ([0x676573], [0x30]), ([0x65707974], [0x62616c])],
  [([0x6469], [0x31383731]), ([0x656d616e], [0x2237335f656761705f30345f6b6369745f706f22]), ([0x657a697372646461], [0x6574756c6f736261]), ([0x65706f6373], [0x31]), ([0x666564], [0x323232312b343131312b383738]), ([0x6c6176], [0x353932347830]), ([0x676573], [0x30]), ([0x65707974], [0x62616c])],
  [([0x6469], [0x32383731]), ([0x656d616e], [0x2237335f656761705f38335f6b6369745f706f22]), ([0x657a697372646461], [0x6574756c6f736261]), ([0x65706f6373], [0x31]), ([0x666564], [0x353633312b3930362b383738]), ([0x6c6176], [0x353732347830]), ([0x676573], [0x30]), ([0x65707974], [0x62616c])],
  [([0x6469], [0x33383731]), ([0x656d616e], [0x22444022]), ([0x657a697372646461], [0x6574756c6f736261]), ([0x746e65726170], [0x34383731]), ([0x666564], [0x333932312b363332312b383738]), ([0x666572], [0x3837382b383738]), ([0x6c6176], [0x323732347830]), ([0x676573], [0x30]), ([0x65707974], [0x62616c])],
  [([0x6469], [0x34383731]), ([0x656d616e], [0x2237335f656761705f36335f6b6369745f706f22]), ([0x657a697372646461], [0x6574756c6f736261]), ([0x65706f6373], [0x31]), ([0x666564], [0x3036382b363332312b383738]), ([0x6c6176], [0x313432347830]), ([0x676573], [0x30]), ([0x65707974], [0x62616c])],
  [([0x6469], [0x35383731]), ([0x656d616e], [0x2237335f656761705f34335f6b6369745f706f22]), ([0x657a697372646461], [0x6574756c6f736261]), ([0x65706f6373], [0x31]), ([0x666564], [0x343030312b363330312b383738]), ([0x6c6176], [0x423132347830]), ([0x676573], [0x30]), ([0x65707974], [0x62616c])],
  [([0x6469], [0x36383731]), ([0x656d616e], [0x2237335f656761705f32335f6b6369745f706f22]), ([0x657a697372646461], [0x6574756c6f736261]), ([0x65706f6373], [0x31]), ([0x666564], [0x3234362b393230312b383738]), ([0x6c6176], [0x464631347830]), ([0x676573], [0x30]), ([0x65707974], [0x62616c])],
  [([0x6469], [0x37383731]), ([0x656d616e], [0x2237335f656761705f30335f6b6369745f706f22]), ([0x657a697372646461], [0x6574756c6f736261]), ([0x65706f6373], [0x31]), ([0x666564], [0x373330312b373130312b383738]), ([0x6c6176], [0x324531347830]), ([0x676573], [0x30]), ([0x65707974], [0x62616c])],
  [([0x6469], [0x38383731]), ([0x656d616e], [0x2237335f656761705f38325f6b6369745f706f22]), ([0x657a697372646461], [0x6574756c6f736261]), ([0x65706f6373], [0x31]), ([0x666564], [0x3231322b3637312b383738]), ([0x6c6176], [0x394331347830]), ([0x676573], [0x30]), ([0x65707974], [0x62616c])],
  [([0x6469], [0x39383731]), ([0x656d616e], [0x2237335f656761705f36325f6b6369745f706f22]), ([0x657a697372646461], [0x6574756c6f736261]), ([0x65706f6373], [0x31]), ([0x666564], [0x3038352b3831322b383738]), ([0x6c6176], [0x464131347830]), ([0x676573], [0x30]), ([0x65707974], [0x62616c])],
  [([0x6469], [0x30393731]), ([0x656d616e], [0x2237335f656761705f34325f6b6369745f706f22]), ([0x657a697372646461], [0x6574756c6f736261]), ([0x65706f6373], [0x31]), ([0x666564], [0x3837362b333232312b383738]), ([0x6c6176], [0x383931347830]), ([0x676573], [0x30]), ([0x65707974], [0x62616c])],
  [([0x6469], [0x31393731]), ([0x656d616e], [0x2237335f656761705f32325f6b6369745f706f22]), ([0x657a697372646461], [0x6574756c6f736261]), ([0x65706f6373], [0x31]), ([0x666564], [0x323931312b373033312b383738]), ([0x6c6176], [0x313831347830]), ([0x676573], [0x30]), ([0x65707974], [0x62616c])]]

/-- player/iivision.dbg, sym lines 1792-1823 -/
def symLines56 : List (List (List Nat × List Nat)) := [
  [([0x6469], [0x32393731]), ([0x656d616e], [0x2237335f656761705f30325f6b6369745f706f22]), ([0x657a697372646461], [0x6574756c6f736261]), ([0x65706f6373], [0x31]), ([0x666564], [0x32332b373732312b383738]), ([0x6c6176], [0x443631347830]), ([0x676573], [0x30]), ([0x65707974], [0x62616c])],
  [([0x6469], [0x33393731]), ([0x656d616e], [0x22444022]), ([0x657a697372646461], [0x6574756c6f736261]), ([0x746e65726170], [0x34393731]), ([0x666564], [0x3430352b38392b383738]), ([0x666572], [0x3837382b383738]), ([0x6c6176], [0x413631347830]), ([0x676573], [0x30]), ([0x65707974], [0x62616c])],
  [([0x6469], [0x34393731]), ([0x656d616e], [0x2237335f656761705f38315f6b6369745f706f22]), ([0x657a697372646461], [0x6574756c6f736261]), ([0x65706f6373], [0x31]), ([0x666564], [0x323032312b38392b383738]), ([0x6c6176], [0x393331347830]), ([0x676573], [0x30]), ([0x65707974], [0x62616c])],
  [([0x6469], [0x35393731]), ([0x656d616e], [0x2237335f656761705f36315f6b6369745f706f22]), ([0x657a697372646461], [0x6574756c6f736261]), ([0x65706f6373], [0x31]), ([0x666564], [0x3032382b3332392b383738]), ([0x6c6176], [0x323231347830]), ([0x676573], [0x30]), ([0x65707974], [0x62616c])],
  [([0x6469], [0x36393731]), ([0x656d616e], [0x2237335f656761705f34315f6b6369745f706f22]), ([0x657a697372646461], [0x6574756c6f736261]), ([0x65706f6373], [0x31]), ([0x666564], [0x33312b3430332b383738]), ([0x6c6176], [0x323131347830]), ([0x676573], [0x30]), ([0x65707974], [0x62616c])],
  [([0x6469], [0x37393731]), ([0x656d616e], [0x2237335f656761705f32315f6b6369745f706f22]), ([0x657a697372646461], [0x6574756c6f736261]), ([0x65706f6373], [0x31]), ([0x666564], [0x3736372b383431312b383738]), ([0x6c6176], [0x313031347830]), ([0x676573], [0x30]), ([0x65707974], [0x62616c])],
  [([0x6469], [0x38393731]), ([0x656d616e], [0x2237335f656761705f30315f6b6369745f706f22]), ([0x657a697372646461], [0x6574756c6f736261]), ([0x65706f6373], [0x31]), ([0x666564], [0x3334392b3334372b383738]), ([0x6c6176], [0x344630347830]), ([0x676573], [0x30]), ([0x65707974], [0x62616c])],
  [([0x6469], [0x39393731]), ([0x656d616e], [0x2237335f656761705f385f6b6369745f706f22]), ([0x657a697372646461], [0x6574756c6f736261]), ([0x65706f6373], [0x31]), ([0x666564], [0x3132382b3037332b383738]), ([0x6c6176], [0x364530347830]), ([0x676573], [0x30]), ([0x65707974], [0x62616c])],
  [([0x6469], [0x30303831]), ([0x656d616e], [0x22385f6c6961745f37335f656761705f6b6369745f706f5f22]), ([0x657a697372646461], [0x6574756c6f736261]), ([0x65706f6373], [0x31]), ([0x666564], [0x3432312b3033362b3737352b383738]), ([0x6c6176], [0x304530347830]), ([0x676573], [0x30]), ([0x65707974], [0x62616c])],
  [([0x6469], [0x31303831]), ([0x656d616e], [0x2232315f6c6961745f37335f656761705f6b6369745f706f5f22]), ([0x657a697372646461], [0x6574756c6f736261]), ([0x65706f6373], [0x31]), ([0x666564], [0x3432312b383430312b3737352b383738]), ([0x666572], [0x383738]), ([0x6c6176], [0x444430347830]), ([0x676573], [0x30]), ([0x65707974], [0x62616c])],
  [([0x6469], [0x32303831]), ([0x656d616e], [0x22706d6a5f37335f656761705f365f6b6369745f706f5f22]), ([0x657a697372646461], [0x6574756c6f736261]), ([0x65706f6373], [0x31]), ([0x666564], [0x3735372b3737352b383738]), ([0x666572], [0x3837382b3837382b383738]), ([0x6c6176], [0x334530347830]), ([0x676573], [0x30]), ([0x65707974], [0x62616c])],
  [([0x6469], [0x33303831]), ([0x656d616e], [0x2236315f6c6961745f37335f656761705f6b6369745f706f5f22]), ([0x657a697372646461], [0x6574756c6f736261]), ([0x65706f6373], [0x31]), ([0x666564], [0x3432312b3837312b3737352b383738]), ([0x666572], [0x383738]), ([0x6c6176], [0x414430347830]), ([0x676573], [0x30]), ([0x65707974], [0x62616c])],
  [([0x6469], [0x34303831]), ([0x656d616e], [0x2230325f6c6961745f37335f656761705f6b6369745f706f5f22]), ([0x657a697372646461], [0x6574756c6f736261]), ([0x65706f6373], [0x31]), ([0x666564], [0x3432312b3238362b3737352b383738]), ([0x666572], [0x3837382b383738]), ([0x6c6176], [0x374430347830]), ([0x676573], [0x30]), ([0x65707974], [0x62616c])],
  [([0x6469], [0x35303831]), ([0x656d616e], [0x2235325f6c6961745f37335f656761705f6b6369745f706f5f22]), ([0x657a697372646461], [0x6574756c6f736261]), ([0x65706f6373], [0x31]), ([0x666564], [0x3432312b353431312b3737352b383738]), ([0x6c6176], [0x344430347830]), ([0x676573], [0x30]), ([0x65707974], [0x62616c])],
  [([0x6469], [0x36303831]), ([0x656d616e], [0x2239325f6c6961745f37335f656761705f6b6369745f706f5f22]), ([0x657a697372646461], [0x6574756c6f736261]), ([0x65706f6373], [0x31]), ([0x666564], [0x3432312b343632312b3737352b383738]), ([0x6c6176], [0x314430347830]), ([0x676573], [0x30]), ([0x65707974], [0x62616c])],
  [([0x6469], [0x37303831]), ([0x656d616e], [0x2234335f6c6961745f37335f656761705f6b6369745f706f5f22]), ([0x657a697372646461], [0x6574756c6f736261]), ([0x65706f6373], [0x31]), ([0x666564], [0x3432312b3538342b3737352b383738]), ([0x666572], [0x383738]), ([0x6c6176], [0x454330347830]), ([0x676573], [0x30]), ([0x65707974], [0x62616c])],
  [([0x6469], [0x38303831]), ([0x656d616e], [0x2238335f6c6961745f37335f656761705f6b6369745f706f5f22]), ([0x657a697372646461], [0x6574756c6f736261]), ([0x65706f6373], [0x31]), ([0x666564], [0x3432312b3435352b3737352b383738]), ([0x666572], [0x383738]), ([0x6c6176], [0x424330347830]), ([0x676573], [0x30]), ([0x65707974], [0x62616c])],
  [([0x6469], [0x39303831]), ([0x656d616e], [0x2233345f6c6961745f37335f656761705f6b6369745f706f5f22]), ([0x657a697372646461], [0x6574756c6f736261]), ([0x65706f6373], [0x31]), ([0x666564], [0x3432312b383433312b3737352b383738]), ([0x666572], [0x383738]), ([0x6c6176], [0x384330347830]), ([0x676573], [0x30]), ([0x65707974], [0x62616c])],
  [([0x6469], [0x30313831]), ([0x656d616e], [0x2237345f6c6961745f37335f656761705f6b6369745f706f5f22]), ([0x657a697372646461], [0x6574756c6f736261]), ([0x65706f6373], [0x31]), ([0x666564], [0x3432312b3637372b3737352b383738]), ([0x6c6176], [0x354330347830]), ([0x676573], [0x30]), ([0x65707974], [0x62616c])],
  [([0x6469], [0x31313831]), ([0x656d616e], [0x2232355f6c6961745f37335f656761705f6b6369745f706f5f22]), ([0x657a697372646461], [0x6574756c6f736261]), ([0x65706f6373], [0x31]), ([0x666564], [0x3432312b3137362b3737352b383738]), ([0x666572], [0x383738]), ([0x6c6176], [0x324330347830]), ([0x676573], [0x30]), ([0x65707974], [0x62616c])],
  [([0x6469], [0x32313831]), ([0x656d616e], [0x2236355f6c6961745f37335f656761705f6b6369745f706f5f22]), ([0x657a697372646461], [0x6574756c6f736261]), ([0x65706f6373], [0x31]), ([0x666564], [0x3432312b3839342b3737352b383738]), ([0x666572], [0x383738]), ([0x6c6176], [0x464230347830]), ([0x676573], [0x30]), ([0x65707974], [0x62616c])],
  [([0x6469], [0x33313831]), ([0x656d616e], [0x2230365f6c6961745f37335f656761705f6b6369745f706f5f22]), ([0x657a697372646461], [0x6574756c6f736261]), ([0x65706f6373], [0x31]), ([0x666564], [0x3432312b353632312b3737352b383738]), ([0x6c6176], [0x434230347830]), ([0x676573], [0x30]), ([0x65707974], [0x62616c])],
  [([0x6469], [0x34313831]), ([0x656d616e], [0x2237335f656761705f365f6b6369745f706f22]), ([0x657a697372646461], [0x6574756c6f736261]), ([0x65706f6373], [0x31]), ([0x666564], [0x3432382b3737352b383738]), ([0x6c6176], [0x334230347830]), ([0x676573], [0x30]), ([0x65707974], [0x62616c])],
  [([0x6469], [0x35313831]), ([0x656d616e], [0x22375f6c6961745f37335f656761705f6b6369745f706f5f22]), ([0x657a697372646461], [0x6574756c6f736261]), ([0x65706f6373], [0x31]), ([0x666564], [0x3432312b3330392b3337332b383738]), ([0x6c6176], [0x444130347830]), ([0x676573], [0x30]), ([0x65707974], [0x62616c])],
  [([0x6469], [0x36313831]), ([0x656d616e], [0x2231315f6c6961745f37335f656761705f6b6369745f706f5f22]), ([0x657a697372646461], [0x6574756c6f736261]), ([0x65706f6373], [0x31]), ([0x666564], [0x3432312b333732312b3337332b383738]), ([0x6c6176], [0x414130347830]), ([0x676573], [0x30]), ([0x65707974], [0x62616c])],
  [([0x6469], [0x37313831]), ([0x656d616e], [0x22706d6a5f37335f656761705f345f6b6369745f706f5f22]), ([0x657a697372646461], [0x6574756c6f736261]), ([0x65706f6373], [0x31]), ([0x666564], [0x3134322b3337332b383738]), ([0x666572], [0x3837382b383738]), ([0x6c6176], [0x304230347830]), ([0x676573], [0x30]), ([0x65707974], [0x62616c])],
  [([0x6469], [0x38313831]), ([0x656d616e], [0x2235315f6c6961745f37335f656761705f6b6369745f706f5f22]), ([0x657a697372646461], [0x6574756c6f736261]), ([0x65706f6373], [0x31]), ([0x666564], [0x3432312b3538352b3337332b383738]), ([0x666572], [0x383738]), ([0x6c6176], [0x374130347830]), ([0x676573], [0x30]), ([0x65707974], [0x62616c])],
  [([0x6469], [0x39313831]), ([0x656d616e], [0x2239315f6c6961745f37335f656761705f6b6369745f706f5f22]), ([0x657a697372646461], [0x6574756c6f736261]), ([0x65706f6373], [0x31]), ([0x666564], [0x3432312b3737322b3337332b383738]), ([0x666572], [0x383738]), ([0x6c6176], [0x344130347830]), ([0x676573], [0x30]), ([0x65707974], [0x62616c])],
  [([0x6469], [0x30323831]), ([0x656d616e], [0x2234325f6c6961745f37335f656761705f6b6369745f706f5f22]), ([0x657a697372646461], [0x6574756c6f736261]), ([0x65706f6373], [0x31]), ([0x666564], [0x3432312b3831352b3337332b383738]), ([0x666572], [0x3837382b383738]), ([0x6c6176], [0x314130347830]), ([0x676573], [0x30]), ([0x65707974], [0x62616c])],
  [([0x6469], [0x31323831]), ([0x656d616e], [0x2238325f6c6961745f37335f656761705f6b6369745f706f5f22]), ([0x657a697372646461], [0x6574756c6f736261]), ([0x65706f6373], [0x31]), ([0x666564], [0x3432312b3436312b3337332b383738]), ([0x666572], [0x383738]), ([0x6c6176], [0x453930347830]), ([0x676573], [0x30]), ([0x65707974], [0x62616c])],
  [([0x6469], [0x32323831]), ([0x656d616e], [0x2233335f6c6961745f37335f656761705f6b6369745f706f5f22]), ([0x657a697372646461], [0x6574756c6f736261]), ([0x65706f6373], [0x31]), ([0x666564], [0x3432312b3435312b3337332b383738]), ([0x666572], [0x383738]), ([0x6c6176], [0x423930347830]), ([0x676573], [0x30]), ([0x65707974], [0x62616c])],
  [([0x6469], [0x33323831]), ([0x656d616e], [0x2237335f6c6961745f37335f656761705f6b6369745f706f5f22]), ([0x657a697372646461], [0x6574756c6f736261]), ([0x65706f6373], [0x31]), ([0x666564], [0x3432312b373532312b3337332b383738]), ([0x666572], [0x383738]), ([0x6c6176], [0x383930347830]), ([0x676573], [0x30]), ([0x65707974], [0x62616c])]]

/-- player/iivision.dbg, sym lines 1824-1855 -/
def symLines57 : List (List (List Nat × List Nat)) := [
  [([0x6469], [0x34323831]), ([0x656d616e], [0x2232345f6c6961745f37335f656761705f6b6369745f706f5f22]), ([0x657a697372646461], [0x6574756c6f736261]), ([0x65706f6373], [0x31]), ([0x666564], [0x3432312b323033312b3337332b383738]), ([0x666572], [0x3837382b383738]), ([0x6c6176], [0x353930347830]), ([0x676573], [0x30]), ([0x65707974], [0x62616c])],
  [([0x6469], [0x35323831]), ([0x656d616e], [0x2236345f6c6961745f37335f656761705f6b6369745f706f5f22]), ([0x657a697372646461], [0x6574756c6f736261]), ([0x65706f6373], [0x31]), ([0x666564], [0x3432312b3530382b3337332b383738]), ([0x666572], [0x383738]), ([0x6c6176], [0x323930347830]), ([0x676573], [0x30]), ([0x65707974], [0x62616c])],
  [([0x6469], [0x36323831]), ([0x656d616e], [0x2231355f6c6961745f37335f656761705f6b6369745f706f5f22]), ([0x657a697372646461], [0x6574756c6f736261]), ([0x65706f6373], [0x31]), ([0x666564], [0x3432312b343231312b3337332b383738]), ([0x666572], [0x383738]), ([0x6c6176], [0x463830347830]), ([0x676573], [0x30]), ([0x65707974], [0x62616c])],
  [([0x6469], [0x37323831]), ([0x656d616e], [0x2235355f6c6961745f37335f656761705f6b6369745f706f5f22]), ([0x657a697372646461], [0x6574756c6f736261]), ([0x65706f6373], [0x31]), ([0x666564], [0x3432312b3332332b3337332b383738]), ([0x666572], [0x383738]), ([0x6c6176], [0x433830347830]), ([0x676573], [0x30]), ([0x65707974], [0x62616c])],
  [([0x6469], [0x38323831]), ([0x656d616e], [0x2239355f6c6961745f37335f656761705f6b6369745f706f5f22]), ([0x657a697372646461], [0x6574756c6f736261]), ([0x65706f6373], [0x31]), ([0x666564], [0x3432312b323431312b3337332b383738]), ([0x6c6176], [0x393830347830]), ([0x676573], [0x30]), ([0x65707974], [0x62616c])],
  [([0x6469], [0x39323831]), ([0x656d616e], [0x2237335f656761705f345f6b6369745f706f22]), ([0x657a697372646461], [0x6574756c6f736261]), ([0x65706f6373], [0x31]), ([0x666564], [0x323630312b3337332b383738]), ([0x6c6176], [0x463730347830]), ([0x676573], [0x30]), ([0x65707974], [0x62616c])],
  [([0x6469], [0x30333831]), ([0x656d616e], [0x2233365f656761705f34325f6b6369745f706f22]), ([0x657a697372646461], [0x6574756c6f736261]), ([0x65706f6373], [0x31]), ([0x666564], [0x3939312b3933]), ([0x6c6176], [0x374546317830]), ([0x676573], [0x37]), ([0x65707974], [0x62616c])],
  [([0x6469], [0x31333831]), ([0x656d616e], [0x2233365f656761705f32325f6b6369745f706f22]), ([0x657a697372646461], [0x6574756c6f736261]), ([0x65706f6373], [0x31]), ([0x666564], [0x373433312b313938]), ([0x6c6176], [0x304446317830]), ([0x676573], [0x37]), ([0x65707974], [0x62616c])],
  [([0x6469], [0x32333831]), ([0x656d616e], [0x2233365f656761705f30325f6b6369745f706f22]), ([0x657a697372646461], [0x6574756c6f736261]), ([0x65706f6373], [0x31]), ([0x666564], [0x3832382b39373331]), ([0x6c6176], [0x434246317830]), ([0x676573], [0x37]), ([0x65707974], [0x62616c])],
  [([0x6469], [0x33333831]), ([0x656d616e], [0x22444022]), ([0x657a697372646461], [0x6574756c6f736261]), ([0x746e65726170], [0x34333831]), ([0x666564], [0x3333352b34353131]), ([0x666572], [0x343531312b34353131]), ([0x6c6176], [0x394246317830]), ([0x676573], [0x37]), ([0x65707974], [0x62616c])],
  [([0x6469], [0x34333831]), ([0x656d616e], [0x2233365f656761705f38315f6b6369745f706f22]), ([0x657a697372646461], [0x6574756c6f736261]), ([0x65706f6373], [0x31]), ([0x666564], [0x31332b34353131]), ([0x6c6176], [0x383846317830]), ([0x676573], [0x37]), ([0x65707974], [0x62616c])],
  [([0x6469], [0x35333831]), ([0x656d616e], [0x2233365f656761705f36315f6b6369745f706f22]), ([0x657a697372646461], [0x6574756c6f736261]), ([0x65706f6373], [0x31]), ([0x666564], [0x3432392b303838]), ([0x6c6176], [0x313746317830]), ([0x676573], [0x37]), ([0x65707974], [0x62616c])],
  [([0x6469], [0x36333831]), ([0x656d616e], [0x2233365f656761705f34315f6b6369745f706f22]), ([0x657a697372646461], [0x6574756c6f736261]), ([0x65706f6373], [0x31]), ([0x666564], [0x3235392b373734]), ([0x6c6176], [0x313646317830]), ([0x676573], [0x37]), ([0x65707974], [0x62616c])],
  [([0x6469], [0x37333831]), ([0x656d616e], [0x2233365f656761705f32315f6b6369745f706f22]), ([0x657a697372646461], [0x6574756c6f736261]), ([0x65706f6373], [0x31]), ([0x666564], [0x3631312b383836]), ([0x6c6176], [0x303546317830]), ([0x676573], [0x37]), ([0x65707974], [0x62616c])],
  [([0x6469], [0x38333831]), ([0x656d616e], [0x2233365f656761705f30315f6b6369745f706f22]), ([0x657a697372646461], [0x6574756c6f736261]), ([0x65706f6373], [0x31]), ([0x666564], [0x3031342b373433]), ([0x6c6176], [0x333446317830]), ([0x676573], [0x37]), ([0x65707974], [0x62616c])],
  [([0x6469], [0x39333831]), ([0x656d616e], [0x2233365f656761705f385f6b6369745f706f22]), ([0x657a697372646461], [0x6574756c6f736261]), ([0x65706f6373], [0x31]), ([0x666564], [0x363732312b323139]), ([0x6c6176], [0x353346317830]), ([0x676573], [0x37]), ([0x65707974], [0x62616c])],
  [([0x6469], [0x30343831]), ([0x656d616e], [0x22385f6c6961745f33365f656761705f6b6369745f706f5f22]), ([0x657a697372646461], [0x6574756c6f736261]), ([0x65706f6373], [0x31]), ([0x666564], [0x3232332b3439392b333938]), ([0x6c6176], [0x463246317830]), ([0x676573], [0x37]), ([0x65707974], [0x62616c])],
  [([0x6469], [0x31343831]), ([0x656d616e], [0x2232315f6c6961745f33365f656761705f6b6369745f706f5f22]), ([0x657a697372646461], [0x6574756c6f736261]), ([0x65706f6373], [0x31]), ([0x666564], [0x3232332b303430312b333938]), ([0x666572], [0x383035]), ([0x6c6176], [0x433246317830]), ([0x676573], [0x37]), ([0x65707974], [0x62616c])],
  [([0x6469], [0x32343831]), ([0x656d616e], [0x22706d6a5f33365f656761705f365f6b6369745f706f5f22]), ([0x657a697372646461], [0x6574756c6f736261]), ([0x65706f6373], [0x31]), ([0x666564], [0x3133342b333938]), ([0x666572], [0x3830352b3339382b333938]), ([0x6c6176], [0x323346317830]), ([0x676573], [0x37]), ([0x65707974], [0x62616c])],
  [([0x6469], [0x33343831]), ([0x656d616e], [0x2236315f6c6961745f33365f656761705f6b6369745f706f5f22]), ([0x657a697372646461], [0x6574756c6f736261]), ([0x65706f6373], [0x31]), ([0x666564], [0x3232332b303733312b333938]), ([0x666572], [0x35313131]), ([0x6c6176], [0x393246317830]), ([0x676573], [0x37]), ([0x65707974], [0x62616c])],
  [([0x6469], [0x34343831]), ([0x656d616e], [0x2230325f6c6961745f33365f656761705f6b6369745f706f5f22]), ([0x657a697372646461], [0x6574756c6f736261]), ([0x65706f6373], [0x31]), ([0x666564], [0x3232332b333831312b333938]), ([0x666572], [0x363031312b32373031]), ([0x6c6176], [0x363246317830]), ([0x676573], [0x37]), ([0x65707974], [0x62616c])],
  [([0x6469], [0x35343831]), ([0x656d616e], [0x2235325f6c6961745f33365f656761705f6b6369745f706f5f22]), ([0x657a697372646461], [0x6574756c6f736261]), ([0x65706f6373], [0x31]), ([0x666564], [0x3232332b313531312b333938]), ([0x6c6176], [0x333246317830]), ([0x676573], [0x37]), ([0x65707974], [0x62616c])],
  [([0x6469], [0x36343831]), ([0x656d616e], [0x2239325f6c6961745f33365f656761705f6b6369745f706f5f22]), ([0x657a697372646461], [0x6574756c6f736261]), ([0x65706f6373], [0x31]), ([0x666564], [0x3232332b3738322b333938]), ([0x6c6176], [0x303246317830]), ([0x676573], [0x37]), ([0x65707974], [0x62616c])],
  [([0x6469], [0x37343831]), ([0x656d616e], [0x2234335f6c6961745f33365f656761705f6b6369745f706f5f22]), ([0x657a697372646461], [0x6574756c6f736261]), ([0x65706f6373], [0x31]), ([0x666564], [0x3232332b3130322b333938]), ([0x666572], [0x35363031]), ([0x6c6176], [0x443146317830]), ([0x676573], [0x37]), ([0x65707974], [0x62616c])],
  [([0x6469], [0x38343831]), ([0x656d616e], [0x2238335f6c6961745f33365f656761705f6b6369745f706f5f22]), ([0x657a697372646461], [0x6574756c6f736261]), ([0x65706f6373], [0x31]), ([0x666564], [0x3232332b353932312b333938]), ([0x666572], [0x333632]), ([0x6c6176], [0x413146317830]), ([0x676573], [0x37]), ([0x65707974], [0x62616c])],
  [([0x6469], [0x39343831]), ([0x656d616e], [0x2233345f6c6961745f33365f656761705f6b6369745f706f5f22]), ([0x657a697372646461], [0x6574756c6f736261]), ([0x65706f6373], [0x31]), ([0x666564], [0x3232332b3634322b333938]), ([0x666572], [0x303838]), ([0x6c6176], [0x373146317830]), ([0x676573], [0x37]), ([0x65707974], [0x62616c])],
  [([0x6469], [0x30353831]), ([0x656d616e], [0x2237345f6c6961745f33365f656761705f6b6369745f706f5f22]), ([0x657a697372646461], [0x6574756c6f736261]), ([0x65706f6373], [0x31]), ([0x666564], [0x3232332b303030312b333938]), ([0x6c6176], [0x343146317830]), ([0x676573], [0x37]), ([0x65707974], [0x62616c])],
  [([0x6469], [0x31353831]), ([0x656d616e], [0x2232355f6c6961745f33365f656761705f6b6369745f706f5f22]), ([0x657a697372646461], [0x6574756c6f736261]), ([0x65706f6373], [0x31]), ([0x666564], [0x3232332b3730352b333938]), ([0x666572], [0x373734]), ([0x6c6176], [0x313146317830]), ([0x676573], [0x37]), ([0x65707974], [0x62616c])],
  [([0x6469], [0x32353831]), ([0x656d616e], [0x2236355f6c6961745f33365f656761705f6b6369745f706f5f22]), ([0x657a697372646461], [0x6574756c6f736261]), ([0x65706f6373], [0x31]), ([0x666564], [0x3232332b3933322b333938]), ([0x666572], [0x373433]), ([0x6c6176], [0x453046317830]), ([0x676573], [0x37]), ([0x65707974], [0x62616c])],
  [([0x6469], [0x33353831]), ([0x656d616e], [0x2230365f6c6961745f33365f656761705f6b6369745f706f5f22]), ([0x657a697372646461], [0x6574756c6f736261]), ([0x65706f6373], [0x31]), ([0x666564], [0x3232332b3034342b333938]), ([0x6c6176], [0x423046317830]), ([0x676573], [0x37]), ([0x65707974], [0x62616c])],
  [([0x6469], [0x34353831]), ([0x656d616e], [0x2233365f656761705f365f6b6369745f706f22]), ([0x657a697372646461], [0x6574756c6f736261]), ([0x65706f6373], [0x31]), ([0x666564], [0x3635322b333938]), ([0x6c6176], [0x323046317830]), ([0x676573], [0x37]), ([0x65707974], [0x62616c])],
  [([0x6469], [0x35353831]), ([0x656d616e], [0x22375f6c6961745f33365f656761705f6b6369745f706f5f22]), ([0x657a697372646461], [0x6574756c6f736261]), ([0x65706f6373], [0x31]), ([0x666564], [0x3232332b3635312b363333]), ([0x6c6176], [0x434645317830]), ([0x676573], [0x37]), ([0x65707974], [0x62616c])]]

/-- player/iivision.dbg, sym lines 1856-1887 -/
def symLines58 : List (List (List Nat × List Nat)) := [
  [([0x6469], [0x36353831]), ([0x656d616e], [0x2231315f6c6961745f33365f656761705f6b6369745f706f5f22]), ([0x657a697372646461], [0x6574756c6f736261]), ([0x65706f6373], [0x31]), ([0x666564], [0x3232332b3733312b363333]), ([0x6c6176], [0x394645317830]), ([0x676573], [0x37]), ([0x65707974], [0x62616c])],
  [([0x6469], [0x37353831]), ([0x656d616e], [0x22706d6a5f33365f656761705f345f6b6369745f706f5f22]), ([0x657a697372646461], [0x6574756c6f736261]), ([0x65706f6373], [0x31]), ([0x666564], [0x36322b363333]), ([0x666572], [0x3633332b363333]), ([0x6c6176], [0x464645317830]), ([0x676573], [0x37]), ([0x65707974], [0x62616c])],
  [([0x6469], [0x38353831]), ([0x656d616e], [0x2235315f6c6961745f33365f656761705f6b6369745f706f5f22]), ([0x657a697372646461], [0x6574756c6f736261]), ([0x65706f6373], [0x31]), ([0x666564], [0x3232332b3035322b363333]), ([0x666572], [0x333838]), ([0x6c6176], [0x364645317830]), ([0x676573], [0x37]), ([0x65707974], [0x62616c])],
  [([0x6469], [0x39353831]), ([0x656d616e], [0x2239315f6c6961745f33365f656761705f6b6369745f706f5f22]), ([0x657a697372646461], [0x6574756c6f736261]), ([0x65706f6373], [0x31]), ([0x666564], [0x3232332b3034372b363333]), ([0x666572], [0x363735]), ([0x6c6176], [0x334645317830]), ([0x676573], [0x37]), ([0x65707974], [0x62616c])],
  [([0x6469], [0x30363831]), ([0x656d616e], [0x2234325f6c6961745f33365f656761705f6b6369745f706f5f22]), ([0x657a697372646461], [0x6574756c6f736261]), ([0x65706f6373], [0x31]), ([0x666564], [0x3232332b3036372b363333]), ([0x666572], [0x36392b31303131]), ([0x6c6176], [0x304645317830]), ([0x676573], [0x37]), ([0x65707974], [0x62616c])],
  [([0x6469], [0x31363831]), ([0x656d616e], [0x2238325f6c6961745f33365f656761705f6b6369745f706f5f22]), ([0x657a697372646461], [0x6574756c6f736261]), ([0x65706f6373], [0x31]), ([0x666564], [0x3232332b30322b363333]), ([0x666572], [0x343937]), ([0x6c6176], [0x444545317830]), ([0x676573], [0x37]), ([0x65707974], [0x62616c])],
  [([0x6469], [0x32363831]), ([0x656d616e], [0x2233335f6c6961745f33365f656761705f6b6369745f706f5f22]), ([0x657a697372646461], [0x6574756c6f736261]), ([0x65706f6373], [0x31]), ([0x666564], [0x3232332b3637342b363333]), ([0x666572], [0x35323031]), ([0x6c6176], [0x414545317830]), ([0x676573], [0x37]), ([0x65707974], [0x62616c])],
  [([0x6469], [0x33363831]), ([0x656d616e], [0x2237335f6c6961745f33365f656761705f6b6369745f706f5f22]), ([0x657a697372646461], [0x6574756c6f736261]), ([0x65706f6373], [0x31]), ([0x666564], [0x3232332b3137332b363333]), ([0x666572], [0x373535]), ([0x6c6176], [0x374545317830]), ([0x676573], [0x37]), ([0x65707974], [0x62616c])],
  [([0x6469], [0x34363831]), ([0x656d616e], [0x2232345f6c6961745f33365f656761705f6b6369745f706f5f22]), ([0x657a697372646461], [0x6574756c6f736261]), ([0x65706f6373], [0x31]), ([0x666564], [0x3232332b3135352b363333]), ([0x666572], [0x39332b313938]), ([0x6c6176], [0x344545317830]), ([0x676573], [0x37]), ([0x65707974], [0x62616c])],
  [([0x6469], [0x35363831]), ([0x656d616e], [0x2236345f6c6961745f33365f656761705f6b6369745f706f5f22]), ([0x657a697372646461], [0x6574756c6f736261]), ([0x65706f6373], [0x31]), ([0x666564], [0x3232332b3135362b363333]), ([0x666572], [0x39373331]), ([0x6c6176], [0x314545317830]), ([0x676573], [0x37]), ([0x65707974], [0x62616c])],
  [([0x6469], [0x36363831]), ([0x656d616e], [0x2231355f6c6961745f33365f656761705f6b6369745f706f5f22]), ([0x657a697372646461], [0x6574756c6f736261]), ([0x65706f6373], [0x31]), ([0x666564], [0x3232332b3830342b363333]), ([0x666572], [0x383836]), ([0x6c6176], [0x454445317830]), ([0x676573], [0x37]), ([0x65707974], [0x62616c])],
  [([0x6469], [0x37363831]), ([0x656d616e], [0x2235355f6c6961745f33365f656761705f6b6369745f706f5f22]), ([0x657a697372646461], [0x6574756c6f736261]), ([0x65706f6373], [0x31]), ([0x666564], [0x3232332b3833382b363333]), ([0x666572], [0x323139]), ([0x6c6176], [0x424445317830]), ([0x676573], [0x37]), ([0x65707974], [0x62616c])],
  [([0x6469], [0x38363831]), ([0x656d616e], [0x2239355f6c6961745f33365f656761705f6b6369745f706f5f22]), ([0x657a697372646461], [0x6574756c6f736261]), ([0x65706f6373], [0x31]), ([0x666564], [0x3232332b3237342b363333]), ([0x6c6176], [0x384445317830]), ([0x676573], [0x37]), ([0x65707974], [0x62616c])],
  [([0x6469], [0x39363831]), ([0x656d616e], [0x2233365f656761705f345f6b6369745f706f22]), ([0x657a697372646461], [0x6574756c6f736261]), ([0x65706f6373], [0x31]), ([0x666564], [0x3638352b363333]), ([0x6c6176], [0x454345317830]), ([0x676573], [0x37]), ([0x65707974], [0x62616c])],
  [([0x6469], [0x30373831]), ([0x656d616e], [0x22444022]), ([0x657a697372646461], [0x6574756c6f736261]), ([0x746e65726170], [0x31373831]), ([0x666564], [0x3435322b3833312b313537]), ([0x666572], [0x3135372b313537]), ([0x6c6176], [0x424345317830]), ([0x676573], [0x37]), ([0x65707974], [0x62616c])],
  [([0x6469], [0x31373831]), ([0x656d616e], [0x2236335f656761705f36365f6b6369745f706f22]), ([0x657a697372646461], [0x6574756c6f736261]), ([0x65706f6373], [0x31]), ([0x666564], [0x3739362b3833312b313537]), ([0x6c6176], [0x413945317830]), ([0x676573], [0x37]), ([0x65707974], [0x62616c])],
  [([0x6469], [0x32373831]), ([0x656d616e], [0x22444022]), ([0x657a697372646461], [0x6574756c6f736261]), ([0x746e65726170], [0x33373831]), ([0x666564], [0x3030372b313030312b313537]), ([0x666572], [0x3135372b313537]), ([0x6c6176], [0x373945317830]), ([0x676573], [0x37]), ([0x65707974], [0x62616c])],
  [([0x6469], [0x33373831]), ([0x656d616e], [0x2236335f656761705f34365f6b6369745f706f22]), ([0x657a697372646461], [0x6574756c6f736261]), ([0x65706f6373], [0x31]), ([0x666564], [0x3937392b313030312b313537]), ([0x6c6176], [0x363645317830]), ([0x676573], [0x37]), ([0x65707974], [0x62616c])],
  [([0x6469], [0x34373831]), ([0x656d616e], [0x22444022]), ([0x657a697372646461], [0x6574756c6f736261]), ([0x746e65726170], [0x35373831]), ([0x666564], [0x3033382b3436362b313537]), ([0x666572], [0x3135372b313537]), ([0x6c6176], [0x333645317830]), ([0x676573], [0x37]), ([0x65707974], [0x62616c])],
  [([0x6469], [0x35373831]), ([0x656d616e], [0x2236335f656761705f32365f6b6369745f706f22]), ([0x657a697372646461], [0x6574756c6f736261]), ([0x65706f6373], [0x31]), ([0x666564], [0x3236322b3436362b313537]), ([0x6c6176], [0x323345317830]), ([0x676573], [0x37]), ([0x65707974], [0x62616c])],
  [([0x6469], [0x36373831]), ([0x656d616e], [0x22444022]), ([0x657a697372646461], [0x6574756c6f736261]), ([0x746e65726170], [0x37373831]), ([0x666564], [0x3332382b3937372b313537]), ([0x666572], [0x3135372b313537]), ([0x6c6176], [0x463245317830]), ([0x676573], [0x37]), ([0x65707974], [0x62616c])],
  [([0x6469], [0x37373831]), ([0x656d616e], [0x2236335f656761705f30365f6b6369745f706f22]), ([0x657a697372646461], [0x6574756c6f736261]), ([0x65706f6373], [0x31]), ([0x666564], [0x3532372b3937372b313537]), ([0x6c6176], [0x454644317830]), ([0x676573], [0x37]), ([0x65707974], [0x62616c])],
  [([0x6469], [0x38373831]), ([0x656d616e], [0x22444022]), ([0x657a697372646461], [0x6574756c6f736261]), ([0x746e65726170], [0x39373831]), ([0x666564], [0x383831312b3031352b313537]), ([0x666572], [0x3135372b313537]), ([0x6c6176], [0x424644317830]), ([0x676573], [0x37]), ([0x65707974], [0x62616c])],
  [([0x6469], [0x39373831]), ([0x656d616e], [0x2236335f656761705f38355f6b6369745f706f22]), ([0x657a697372646461], [0x6574756c6f736261]), ([0x65706f6373], [0x31]), ([0x666564], [0x3638392b3031352b313537]), ([0x6c6176], [0x414344317830]), ([0x676573], [0x37]), ([0x65707974], [0x62616c])],
  [([0x6469], [0x30383831]), ([0x656d616e], [0x22444022]), ([0x657a697372646461], [0x6574756c6f736261]), ([0x746e65726170], [0x31383831]), ([0x666564], [0x3130382b3430372b313537]), ([0x666572], [0x3135372b313537]), ([0x6c6176], [0x374344317830]), ([0x676573], [0x37]), ([0x65707974], [0x62616c])],
  [([0x6469], [0x31383831]), ([0x656d616e], [0x2236335f656761705f36355f6b6369745f706f22]), ([0x657a697372646461], [0x6574756c6f736261]), ([0x65706f6373], [0x31]), ([0x666564], [0x363832312b3430372b313537]), ([0x6c6176], [0x363944317830]), ([0x676573], [0x37]), ([0x65707974], [0x62616c])],
  [([0x6469], [0x32383831]), ([0x656d616e], [0x22444022]), ([0x657a697372646461], [0x6574756c6f736261]), ([0x746e65726170], [0x33383831]), ([0x666564], [0x323230312b3132362b313537]), ([0x666572], [0x3135372b313537]), ([0x6c6176], [0x333944317830]), ([0x676573], [0x37]), ([0x65707974], [0x62616c])],
  [([0x6469], [0x33383831]), ([0x656d616e], [0x2236335f656761705f34355f6b6369745f706f22]), ([0x657a697372646461], [0x6574756c6f736261]), ([0x65706f6373], [0x31]), ([0x666564], [0x313032312b3132362b313537]), ([0x6c6176], [0x323644317830]), ([0x676573], [0x37]), ([0x65707974], [0x62616c])],
  [([0x6469], [0x34383831]), ([0x656d616e], [0x2236335f656761705f32355f6b6369745f706f22]), ([0x657a697372646461], [0x6574756c6f736261]), ([0x65706f6373], [0x31]), ([0x666564], [0x3335312b3438382b313537]), ([0x6c6176], [0x373344317830]), ([0x676573], [0x37]), ([0x65707974], [0x62616c])],
  [([0x6469], [0x35383831]), ([0x656d616e], [0x2236335f656761705f30355f6b6369745f706f22]), ([0x657a697372646461], [0x6574756c6f736261]), ([0x65706f6373], [0x31]), ([0x666564], [0x3236392b3431312b313537]), ([0x6c6176], [0x463044317830]), ([0x676573], [0x37]), ([0x65707974], [0x62616c])],
  [([0x6469], [0x36383831]), ([0x656d616e], [0x2236335f656761705f38345f6b6369745f706f22]), ([0x657a697372646461], [0x6574756c6f736261]), ([0x65706f6373], [0x31]), ([0x666564], [0x3933342b363230312b313537]), ([0x6c6176], [0x364543317830]), ([0x676573], [0x37]), ([0x65707974], [0x62616c])],
  [([0x6469], [0x37383831]), ([0x656d616e], [0x2236335f656761705f36345f6b6369745f706f22]), ([0x657a697372646461], [0x6574756c6f736261]), ([0x65706f6373], [0x31]), ([0x666564], [0x343430312b3734362b313537]), ([0x6c6176], [0x314343317830]), ([0x676573], [0x37]), ([0x65707974], [0x62616c])]]

/-- player/iivision.dbg, sym lines 1888-1919 -/
def symLines59 : List (List (List Nat × List Nat)) := [
  [([0x6469], [0x38383831]), ([0x656d616e], [0x2236335f656761705f34345f6b6369745f706f22]), ([0x657a697372646461], [0x6574756c6f736261]), ([0x65706f6373], [0x31]), ([0x666564], [0x3634352b3836322b313537]), ([0x6c6176], [0x423943317830]), ([0x676573], [0x37]), ([0x65707974], [0x62616c])],
  [([0x6469], [0x39383831]), ([0x656d616e], [0x2236335f656761705f32345f6b6369745f706f22]), ([0x657a697372646461], [0x6574756c6f736261]), ([0x65706f6373], [0x31]), ([0x666564], [0x37362b32362b313537]), ([0x6c6176], [0x383743317830]), ([0x676573], [0x37]), ([0x65707974], [0x62616c])],
  [([0x6469], [0x30393831]), ([0x656d616e], [0x2236335f656761705f30345f6b6369745f706f22]), ([0x657a697372646461], [0x6574756c6f736261]), ([0x65706f6373], [0x31]), ([0x666564], [0x323232312b343131312b313537]), ([0x6c6176], [0x353543317830]), ([0x676573], [0x37]), ([0x65707974], [0x62616c])],
  [([0x6469], [0x31393831]), ([0x656d616e], [0x2236335f656761705f38335f6b6369745f706f22]), ([0x657a697372646461], [0x6574756c6f736261]), ([0x65706f6373], [0x31]), ([0x666564], [0x353633312b3930362b313537]), ([0x6c6176], [0x353343317830]), ([0x676573], [0x37]), ([0x65707974], [0x62616c])],
  [([0x6469], [0x32393831]), ([0x656d616e], [0x22444022]), ([0x657a697372646461], [0x6574756c6f736261]), ([0x746e65726170], [0x33393831]), ([0x666564], [0x333932312b363332312b313537]), ([0x666572], [0x3135372b313537]), ([0x6c6176], [0x323343317830]), ([0x676573], [0x37]), ([0x65707974], [0x62616c])],
  [([0x6469], [0x33393831]), ([0x656d616e], [0x2236335f656761705f36335f6b6369745f706f22]), ([0x657a697372646461], [0x6574756c6f736261]), ([0x65706f6373], [0x31]), ([0x666564], [0x3036382b363332312b313537]), ([0x6c6176], [0x313043317830]), ([0x676573], [0x37]), ([0x65707974], [0x62616c])],
  [([0x6469], [0x34393831]), ([0x656d616e], [0x2236335f656761705f34335f6b6369745f706f22]), ([0x657a697372646461], [0x6574756c6f736261]), ([0x65706f6373], [0x31]), ([0x666564], [0x343030312b363330312b313537]), ([0x6c6176], [0x424442317830]), ([0x676573], [0x37]), ([0x65707974], [0x62616c])],
  [([0x6469], [0x35393831]), ([0x656d616e], [0x2236335f656761705f32335f6b6369745f706f22]), ([0x657a697372646461], [0x6574756c6f736261]), ([0x65706f6373], [0x31]), ([0x666564], [0x3234362b393230312b313537]), ([0x6c6176], [0x464242317830]), ([0x676573], [0x37]), ([0x65707974], [0x62616c])],
  [([0x6469], [0x36393831]), ([0x656d616e], [0x2236335f656761705f30335f6b6369745f706f22]), ([0x657a697372646461], [0x6574756c6f736261]), ([0x65706f6373], [0x31]), ([0x666564], [0x373330312b373130312b313537]), ([0x6c6176], [0x324142317830]), ([0x676573], [0x37]), ([0x65707974], [0x62616c])],
  [([0x6469], [0x37393831]), ([0x656d616e], [0x2236335f656761705f38325f6b6369745f706f22]), ([0x657a697372646461], [0x6574756c6f736261]), ([0x65706f6373], [0x31]), ([0x666564], [0x3231322b3637312b313537]), ([0x6c6176], [0x393842317830]), ([0x676573], [0x37]), ([0x65707974], [0x62616c])],
  [([0x6469], [0x38393831]), ([0x656d616e], [0x2236335f656761705f36325f6b6369745f706f22]), ([0x657a697372646461], [0x6574756c6f736261]), ([0x65706f6373], [0x31]), ([0x666564], [0x3038352b3831322b313537]), ([0x6c6176], [0x463642317830]), ([0x676573], [0x37]), ([0x65707974], [0x62616c])],
  [([0x6469], [0x39393831]), ([0x656d616e], [0x2236335f656761705f34325f6b6369745f706f22]), ([0x657a697372646461], [0x6574756c6f736261]), ([0x65706f6373], [0x31]), ([0x666564], [0x3837362b333232312b313537]), ([0x6c6176], [0x383542317830]), ([0x676573], [0x37]), ([0x65707974], [0x62616c])],
  [([0x6469], [0x30303931]), ([0x656d616e], [0x2236335f656761705f32325f6b6369745f706f22]), ([0x657a697372646461], [0x6574756c6f736261]), ([0x65706f6373], [0x31]), ([0x666564], [0x323931312b373033312b313537]), ([0x6c6176], [0x313442317830]), ([0x676573], [0x37]), ([0x65707974], [0x62616c])],
  [([0x6469], [0x31303931]), ([0x656d616e], [0x2236335f656761705f30325f6b6369745f706f22]), ([0x657a697372646461], [0x6574756c6f736261]), ([0x65706f6373], [0x31]), ([0x666564], [0x32332b373732312b313537]), ([0x6c6176], [0x443242317830]), ([0x676573], [0x37]), ([0x65707974], [0x62616c])],
  [([0x6469], [0x32303931]), ([0x656d616e], [0x22444022]), ([0x657a697372646461], [0x6574756c6f736261]), ([0x746e65726170], [0x33303931]), ([0x666564], [0x3430352b38392b313537]), ([0x666572], [0x3135372b313537]), ([0x6c6176], [0x413242317830]), ([0x676573], [0x37]), ([0x65707974], [0x62616c])],
  [([0x6469], [0x33303931]), ([0x656d616e], [0x2236335f656761705f38315f6b6369745f706f22]), ([0x657a697372646461], [0x6574756c6f736261]), ([0x65706f6373], [0x31]), ([0x666564], [0x323032312b38392b313537]), ([0x6c6176], [0x394641317830]), ([0x676573], [0x37]), ([0x65707974], [0x62616c])],
  [([0x6469], [0x34303931]), ([0x656d616e], [0x2236335f656761705f36315f6b6369745f706f22]), ([0x657a697372646461], [0x6574756c6f736261]), ([0x65706f6373], [0x31]), ([0x666564], [0x3032382b3332392b313537]), ([0x6c6176], [0x324541317830]), ([0x676573], [0x37]), ([0x65707974], [0x62616c])],
  [([0x6469], [0x35303931]), ([0x656d616e], [0x2236335f656761705f34315f6b6369745f706f22]), ([0x657a697372646461], [0x6574756c6f736261]), ([0x65706f6373], [0x31]), ([0x666564], [0x33312b3430332b313537]), ([0x6c6176], [0x324441317830]), ([0x676573], [0x37]), ([0x65707974], [0x62616c])],
  [([0x6469], [0x36303931]), ([0x656d616e], [0x2236335f656761705f32315f6b6369745f706f22]), ([0x657a697372646461], [0x6574756c6f736261]), ([0x65706f6373], [0x31]), ([0x666564], [0x3736372b383431312b313537]), ([0x6c6176], [0x314341317830]), ([0x676573], [0x37]), ([0x65707974], [0x62616c])],
  [([0x6469], [0x37303931]), ([0x656d616e], [0x2236335f656761705f30315f6b6369745f706f22]), ([0x657a697372646461], [0x6574756c6f736261]), ([0x65706f6373], [0x31]), ([0x666564], [0x3334392b3334372b313537]), ([0x6c6176], [0x344241317830]), ([0x676573], [0x37]), ([0x65707974], [0x62616c])],
  [([0x6469], [0x38303931]), ([0x656d616e], [0x2236335f656761705f385f6b6369745f706f22]), ([0x657a697372646461], [0x6574756c6f736261]), ([0x65706f6373], [0x31]), ([0x666564], [0x3132382b3037332b313537]), ([0x6c6176], [0x364141317830]), ([0x676573], [0x37]), ([0x65707974], [0x62616c])],
  [([0x6469], [0x39303931]), ([0x656d616e], [0x22385f6c6961745f36335f656761705f6b6369745f706f5f22]), ([0x657a697372646461], [0x6574756c6f736261]), ([0x65706f6373], [0x31]), ([0x666564], [0x3432312b3033362b3737352b313537]), ([0x6c6176], [0x304141317830]), ([0x676573], [0x37]), ([0x65707974], [0x62616c])],
  [([0x6469], [0x30313931]), ([0x656d616e], [0x2232315f6c6961745f36335f656761705f6b6369745f706f5f22]), ([0x657a697372646461], [0x6574756c6f736261]), ([0x65706f6373], [0x31]), ([0x666564], [0x3432312b383430312b3737352b313537]), ([0x666572], [0x313537]), ([0x6c6176], [0x443941317830]), ([0x676573], [0x37]), ([0x65707974], [0x62616c])],
  [([0x6469], [0x31313931]), ([0x656d616e], [0x22706d6a5f36335f656761705f365f6b6369745f706f5f22]), ([0x657a697372646461], [0x6574756c6f736261]), ([0x65706f6373], [0x31]), ([0x666564], [0x3735372b3737352b313537]), ([0x666572], [0x3135372b3135372b313537]), ([0x6c6176], [0x334141317830]), ([0x676573], [0x37]), ([0x65707974], [0x62616c])],
  [([0x6469], [0x32313931]), ([0x656d616e], [0x2236315f6c6961745f36335f656761705f6b6369745f706f5f22]), ([0x657a697372646461], [0x6574756c6f736261]), ([0x65706f6373], [0x31]), ([0x666564], [0x3432312b3837312b3737352b313537]), ([0x666572], [0x313537]), ([0x6c6176], [0x413941317830]), ([0x676573], [0x37]), ([0x65707974], [0x62616c])],
  [([0x6469], [0x33313931]), ([0x656d616e], [0x2230325f6c6961745f36335f656761705f6b6369745f706f5f22]), ([0x657a697372646461], [0x6574756c6f736261]), ([0x65706f6373], [0x31]), ([0x666564], [0x3432312b3238362b3737352b313537]), ([0x666572], [0x3135372b313537]), ([0x6c6176], [0x373941317830]), ([0x676573], [0x37]), ([0x65707974], [0x62616c])],
  [([0x6469], [0x34313931]), ([0x656d616e], [0x2235325f6c6961745f36335f656761705f6b6369745f706f5f22]), ([0x657a697372646461], [0x6574756c6f736261]), ([0x65706f6373], [0x31]), ([0x666564], [0x3432312b353431312b3737352b313537]), ([0x6c6176], [0x343941317830]), ([0x676573], [0x37]), ([0x65707974], [0x62616c])],
  [([0x6469], [0x35313931]), ([0x656d616e], [0x2239325f6c6961745f36335f656761705f6b6369745f706f5f22]), ([0x657a697372646461], [0x6574756c6f736261]), ([0x65706f6373], [0x31]), ([0x666564], [0x3432312b343632312b3737352b313537]), ([0x6c6176], [0x313941317830]), ([0x676573], [0x37]), ([0x65707974], [0x62616c])],
  [([0x6469], [0x36313931]), ([0x656d616e], [0x2234335f6c6961745f36335f656761705f6b6369745f706f5f22]), ([0x657a697372646461], [0x6574756c6f736261]), ([0x65706f6373], [0x31]), ([0x666564], [0x3432312b3538342b3737352b313537]), ([0x666572], [0x313537]), ([0x6c6176], [0x453841317830]), ([0x676573], [0x37]), ([0x65707974], [0x62616c])],
  [([0x6469], [0x37313931]), ([0x656d616e], [0x2238335f6c6961745f36335f656761705f6b6369745f706f5f22]), ([0x657a697372646461], [0x6574756c6f736261]), ([0x65706f6373], [0x31]), ([0x666564], [0x3432312b3435352b3737352b313537]), ([0x666572], [0x313537]), ([0x6c6176], [0x423841317830]), ([0x676573], [0x37]), ([0x65707974], [0x62616c])],
  [([0x6469], [0x38313931]), ([0x656d616e], [0x2233345f6c6961745f36335f656761705f6b6369745f706f5f22]), ([0x657a697372646461], [0x6574756c6f736261]), ([0x65706f6373], [0x31]), ([0x666564], [0x3432312b383433312b3737352b313537]), ([0x666572], [0x313537]), ([0x6c6176], [0x383841317830]), ([0x676573], [0x37]), ([0x65707974], [0x62616c])],
  [([0x6469], [0x39313931]), ([0x656d616e], [0x2237345f6c6961745f36335f656761705f6b6369745f706f5f22]), ([0x657a697372646461], [0x6574756c6f736261]), ([0x65706f6373], [0x31]), ([0x666564], [0x3432312b3637372b3737352b313537]), ([0x6c6176], [0x353841317830]), ([0x676573], [0x37]), ([0x65707974], [0x62616c])]]

/-- player/iivision.dbg, sym lines 1920-1951 -/
def symLines60 : List (List (List Nat × List Nat)) := [
  [([0x6469], [0x30323931]), ([0x656d616e], [0x2232355f6c6961745f36335f656761705f6b6369745f706f5f22]), ([0x657a697372646461], [0x6574756c6f736261]), ([0x65706f6373], [0x31]), ([0x666564], [0x3432312b3137362b3737352b313537]), ([0x666572], [0x313537]), ([0x6c6176], [0x323841317830]), ([0x676573], [0x37]), ([0x65707974], [0x62616c])],
  [([0x6469], [0x31323931]), ([0x656d616e], [0x2236355f6c6961745f36335f656761705f6b6369745f706f5f22]), ([0x657a697372646461], [0x6574756c6f736261]), ([0x65706f6373], [0x31]), ([0x666564], [0x3432312b3839342b3737352b313537]), ([0x666572], [0x313537]), ([0x6c6176], [0x463741317830]), ([0x676573], [0x37]), ([0x65707974], [0x62616c])],
  [([0x6469], [0x32323931]), ([0x656d616e], [0x2230365f6c6961745f36335f656761705f6b6369745f706f5f22]), ([0x657a697372646461], [0x6574756c6f736261]), ([0x65706f6373], [0x31]), ([0x666564], [0x3432312b353632312b3737352b313537]), ([0x6c6176], [0x433741317830]), ([0x676573], [0x37]), ([0x65707974], [0x62616c])],
  [([0x6469], [0x33323931]), ([0x656d616e], [0x2236335f656761705f365f6b6369745f706f22]), ([0x657a697372646461], [0x6574756c6f736261]), ([0x65706f6373], [0x31]), ([0x666564], [0x3432382b3737352b313537]), ([0x6c6176], [0x333741317830]), ([0x676573], [0x37]), ([0x65707974], [0x62616c])],
  [([0x6469], [0x34323931]), ([0x656d616e], [0x22375f6c6961745f36335f656761705f6b6369745f706f5f22]), ([0x657a697372646461], [0x6574756c6f736261]), ([0x65706f6373], [0x31]), ([0x666564], [0x3432312b3330392b3337332b313537]), ([0x6c6176], [0x443641317830]), ([0x676573], [0x37]), ([0x65707974], [0x62616c])],
  [([0x6469], [0x35323931]), ([0x656d616e], [0x2231315f6c6961745f36335f656761705f6b6369745f706f5f22]), ([0x657a697372646461], [0x6574756c6f736261]), ([0x65706f6373], [0x31]), ([0x666564], [0x3432312b333732312b3337332b313537]), ([0x6c6176], [0x413641317830]), ([0x676573], [0x37]), ([0x65707974], [0x62616c])],
  [([0x6469], [0x36323931]), ([0x656d616e], [0x22706d6a5f36335f656761705f345f6b6369745f706f5f22]), ([0x657a697372646461], [0x6574756c6f736261]), ([0x65706f6373], [0x31]), ([0x666564], [0x3134322b3337332b313537]), ([0x666572], [0x3135372b313537]), ([0x6c6176], [0x303741317830]), ([0x676573], [0x37]), ([0x65707974], [0x62616c])],
  [([0x6469], [0x37323931]), ([0x656d616e], [0x2235315f6c6961745f36335f656761705f6b6369745f706f5f22]), ([0x657a697372646461], [0x6574756c6f736261]), ([0x65706f6373], [0x31]), ([0x666564], [0x3432312b3538352b3337332b313537]), ([0x666572], [0x313537]), ([0x6c6176], [0x373641317830]), ([0x676573], [0x37]), ([0x65707974], [0x62616c])],
  [([0x6469], [0x38323931]), ([0x656d616e], [0x2239315f6c6961745f36335f656761705f6b6369745f706f5f22]), ([0x657a697372646461], [0x6574756c6f736261]), ([0x65706f6373], [0x31]), ([0x666564], [0x3432312b3737322b3337332b313537]), ([0x666572], [0x313537]), ([0x6c6176], [0x343641317830]), ([0x676573], [0x37]), ([0x65707974], [0x62616c])],
  [([0x6469], [0x39323931]), ([0x656d616e], [0x2234325f6c6961745f36335f656761705f6b6369745f706f5f22]), ([0x657a697372646461], [0x6574756c6f736261]), ([0x65706f6373], [0x31]), ([0x666564], [0x3432312b3831352b3337332b313537]), ([0x666572], [0x3135372b313537]), ([0x6c6176], [0x313641317830]), ([0x676573], [0x37]), ([0x65707974], [0x62616c])],
  [([0x6469], [0x30333931]), ([0x656d616e], [0x2238325f6c6961745f36335f656761705f6b6369745f706f5f22]), ([0x657a697372646461], [0x6574756c6f736261]), ([0x65706f6373], [0x31]), ([0x666564], [0x3432312b3436312b3337332b313537]), ([0x666572], [0x313537]), ([0x6c6176], [0x453541317830]), ([0x676573], [0x37]), ([0x65707974], [0x62616c])],
  [([0x6469], [0x31333931]), ([0x656d616e], [0x2233335f6c6961745f36335f656761705f6b6369745f706f5f22]), ([0x657a697372646461], [0x6574756c6f736261]), ([0x65706f6373], [0x31]), ([0x666564], [0x3432312b3435312b3337332b313537]), ([0x666572], [0x313537]), ([0x6c6176], [0x423541317830]), ([0x676573], [0x37]), ([0x65707974], [0x62616c])],
  [([0x6469], [0x32333931]), ([0x656d616e], [0x2237335f6c6961745f36335f656761705f6b6369745f706f5f22]), ([0x657a697372646461], [0x6574756c6f736261]), ([0x65706f6373], [0x31]), ([0x666564], [0x3432312b373532312b3337332b313537]), ([0x666572], [0x313537]), ([0x6c6176], [0x383541317830]), ([0x676573], [0x37]), ([0x65707974], [0x62616c])],
  [([0x6469], [0x33333931]), ([0x656d616e], [0x2232345f6c6961745f36335f656761705f6b6369745f706f5f22]), ([0x657a697372646461], [0x6574756c6f736261]), ([0x65706f6373], [0x31]), ([0x666564], [0x3432312b323033312b3337332b313537]), ([0x666572], [0x3135372b313537]), ([0x6c6176], [0x353541317830]), ([0x676573], [0x37]), ([0x65707974], [0x62616c])],
  [([0x6469], [0x34333931]), ([0x656d616e], [0x2236345f6c6961745f36335f656761705f6b6369745f706f5f22]), ([0x657a697372646461], [0x6574756c6f736261]), ([0x65706f6373], [0x31]), ([0x666564], [0x3432312b3530382b3337332b313537]), ([0x666572], [0x313537]), ([0x6c6176], [0x323541317830]), ([0x676573], [0x37]), ([0x65707974], [0x62616c])],
  [([0x6469], [0x35333931]), ([0x656d616e], [0x2231355f6c6961745f36335f656761705f6b6369745f706f5f22]), ([0x657a697372646461], [0x6574756c6f736261]), ([0x65706f6373], [0x31]), ([0x666564], [0x3432312b343231312b3337332b313537]), ([0x666572], [0x313537]), ([0x6c6176], [0x463441317830]), ([0x676573], [0x37]), ([0x65707974], [0x62616c])],
  [([0x6469], [0x36333931]), ([0x656d616e], [0x2235355f6c6961745f36335f656761705f6b6369745f706f5f22]), ([0x657a697372646461], [0x6574756c6f736261]), ([0x65706f6373], [0x31]), ([0x666564], [0x3432312b3332332b3337332b313537]), ([0x666572], [0x313537]), ([0x6c6176], [0x433441317830]), ([0x676573], [0x37]), ([0x65707974], [0x62616c])],
  [([0x6469], [0x37333931]), ([0x656d616e], [0x2239355f6c6961745f36335f656761705f6b6369745f706f5f22]), ([0x657a697372646461], [0x6574756c6f736261]), ([0x65706f6373], [0x31]), ([0x666564], [0x3432312b323431312b3337332b313537]), ([0x6c6176], [0x393441317830]), ([0x676573], [0x37]), ([0x65707974], [0x62616c])],
  [([0x6469], [0x38333931]), ([0x656d616e], [0x2236335f656761705f345f6b6369745f706f22]), ([0x657a697372646461], [0x6574756c6f736261]), ([0x65706f6373], [0x31]), ([0x666564], [0x323630312b3337332b313537]), ([0x6c6176], [0x463341317830]), ([0x676573], [0x37]), ([0x65707974], [0x62616c])],
  [([0x6469], [0x39333931]), ([0x656d616e], [0x22444022]), ([0x657a697372646461], [0x6574756c6f736261]), ([0x746e65726170], [0x30343931]), ([0x666564], [0x3435322b3833312b323935]), ([0x666572], [0x3239352b323935]), ([0x6c6176], [0x433341317830]), ([0x676573], [0x37]), ([0x65707974], [0x62616c])],
  [([0x6469], [0x30343931]), ([0x656d616e], [0x2235335f656761705f36365f6b6369745f706f22]), ([0x657a697372646461], [0x6574756c6f736261]), ([0x65706f6373], [0x31]), ([0x666564], [0x3739362b3833312b323935]), ([0x6c6176], [0x423041317830]), ([0x676573], [0x37]), ([0x65707974], [0x62616c])],
  [([0x6469], [0x31343931]), ([0x656d616e], [0x22444022]), ([0x657a697372646461], [0x6574756c6f736261]), ([0x746e65726170], [0x32343931]), ([0x666564], [0x3030372b313030312b323935]), ([0x666572], [0x3239352b323935]), ([0x6c6176], [0x383041317830]), ([0x676573], [0x37]), ([0x65707974], [0x62616c])],
  [([0x6469], [0x32343931]), ([0x656d616e], [0x2235335f656761705f34365f6b6369745f706f22]), ([0x657a697372646461], [0x6574756c6f736261]), ([0x65706f6373], [0x31]), ([0x666564], [0x3937392b313030312b323935]), ([0x6c6176], [0x374439317830]), ([0x676573], [0x37]), ([0x65707974], [0x62616c])],
  [([0x6469], [0x33343931]), ([0x656d616e], [0x22444022]), ([0x657a697372646461], [0x6574756c6f736261]), ([0x746e65726170], [0x34343931]), ([0x666564], [0x3033382b3436362b323935]), ([0x666572], [0x3239352b323935]), ([0x6c6176], [0x344439317830]), ([0x676573], [0x37]), ([0x65707974], [0x62616c])],
  [([0x6469], [0x34343931]), ([0x656d616e], [0x2235335f656761705f32365f6b6369745f706f22]), ([0x657a697372646461], [0x6574756c6f736261]), ([0x65706f6373], [0x31]), ([0x666564], [0x3236322b3436362b323935]), ([0x6c6176], [0x334139317830]), ([0x676573], [0x37]), ([0x65707974], [0x62616c])],
  [([0x6469], [0x35343931]), ([0x656d616e], [0x22444022]), ([0x657a697372646461], [0x6574756c6f736261]), ([0x746e65726170], [0x36343931]), ([0x666564], [0x3332382b3937372b323935]), ([0x666572], [0x3239352b323935]), ([0x6c6176], [0x304139317830]), ([0x676573], [0x37]), ([0x65707974], [0x62616c])],
  [([0x6469], [0x36343931]), ([0x656d616e], [0x2235335f656761705f30365f6b6369745f706f22]), ([0x657a697372646461], [0x6574756c6f736261]), ([0x65706f6373], [0x31]), ([0x666564], [0x3532372b3937372b323935]), ([0x6c6176], [0x463639317830]), ([0x676573], [0x37]), ([0x65707974], [0x62616c])],
  [([0x6469], [0x37343931]), ([0x656d616e], [0x22444022]), ([0x657a697372646461], [0x6574756c6f736261]), ([0x746e65726170], [0x38343931]), ([0x666564], [0x383831312b3031352b323935]), ([0x666572], [0x3239352b323935]), ([0x6c6176], [0x433639317830]), ([0x676573], [0x37]), ([0x65707974], [0x62616c])],
  [([0x6469], [0x38343931]), ([0x656d616e], [0x2235335f656761705f38355f6b6369745f706f22]), ([0x657a697372646461], [0x6574756c6f736261]), ([0x65706f6373], [0x31]), ([0x666564], [0x3638392b3031352b323935]), ([0x6c6176], [0x423339317830]), ([0x676573], [0x37]), ([0x65707974], [0x62616c])],
  [([0x6469], [0x39343931]), ([0x656d616e], [0x22444022]), ([0x657a697372646461], [0x6574756c6f736261]), ([0x746e65726170], [0x30353931]), ([0x666564], [0x3130382b3430372b323935]), ([0x666572], [0x3239352b323935]), ([0x6c6176], [0x383339317830]), ([0x676573], [0x37]), ([0x65707974], [0x62616c])],
  [([0x6469], [0x30353931]), ([0x656d616e], [0x2235335f656761705f36355f6b6369745f706f22]), ([0x657a697372646461], [0x6574756c6f736261]), ([0x65706f6373], [0x31]), ([0x666564], [0x363832312b3430372b323935]), ([0x6c6176], [0x373039317830]), ([0x676573], [0x37]), ([0x65707974], [0x62616c])],
  [([0x6469], [0x31353931]), ([0x656d616e], [0x22444022]), ([0x657a697372646461], [0x6574756c6f736261]), ([0x746e65726170], [0x32353931]), ([0x666564], [0x323230312b3132362b323935]), ([0x666572], [0x3239352b323935]), ([0x6c6176], [0x343039317830]), ([0x676573], [0x37]), ([0x65707974], [0x62616c])]]

/-- player/iivision.dbg, sym lines 1952-1983 -/
def symLines61 : List (List (List Nat × List Nat)) := [
  [([0x6469], [0x32353931]), ([0x656d616e], [0x2235335f656761705f34355f6b6369745f706f22]), ([0x657a697372646461], [0x6574756c6f736261]), ([0x65706f6373], [0x31]), ([0x666564], [0x313032312b3132362b323935]), ([0x6c6176], [0x334438317830]), ([0x676573], [0x37]), ([0x65707974], [0x62616c])],
  [([0x6469], [0x33353931]), ([0x656d616e], [0x2235335f656761705f32355f6b6369745f706f22]), ([0x657a697372646461], [0x6574756c6f736261]), ([0x65706f6373], [0x31]), ([0x666564], [0x3335312b3438382b323935]), ([0x6c6176], [0x384138317830]), ([0x676573], [0x37]), ([0x65707974], [0x62616c])],
  [([0x6469], [0x34353931]), ([0x656d616e], [0x2235335f656761705f30355f6b6369745f706f22]), ([0x657a697372646461], [0x6574756c6f736261]), ([0x65706f6373], [0x31]), ([0x666564], [0x3236392b3431312b323935]), ([0x6c6176], [0x303838317830]), ([0x676573], [0x37]), ([0x65707974], [0x62616c])],
  [([0x6469], [0x35353931]), ([0x656d616e], [0x2235335f656761705f38345f6b6369745f706f22]), ([0x657a697372646461], [0x6574756c6f736261]), ([0x65706f6373], [0x31]), ([0x666564], [0x3933342b363230312b323935]), ([0x6c6176], [0x373538317830]), ([0x676573], [0x37]), ([0x65707974], [0x62616c])],
  [([0x6469], [0x36353931]), ([0x656d616e], [0x2235335f656761705f36345f6b6369745f706f22]), ([0x657a697372646461], [0x6574756c6f736261]), ([0x65706f6373], [0x31]), ([0x666564], [0x343430312b3734362b323935]), ([0x6c6176], [0x323338317830]), ([0x676573], [0x37]), ([0x65707974], [0x62616c])],
  [([0x6469], [0x37353931]), ([0x656d616e], [0x2235335f656761705f34345f6b6369745f706f22]), ([0x657a697372646461], [0x6574756c6f736261]), ([0x65706f6373], [0x31]), ([0x666564], [0x3634352b3836322b323935]), ([0x6c6176], [0x433038317830]), ([0x676573], [0x37]), ([0x65707974], [0x62616c])],
  [([0x6469], [0x38353931]), ([0x656d616e], [0x2235335f656761705f32345f6b6369745f706f22]), ([0x657a697372646461], [0x6574756c6f736261]), ([0x65706f6373], [0x31]), ([0x666564], [0x37362b32362b323935]), ([0x6c6176], [0x394537317830]), ([0x676573], [0x37]), ([0x65707974], [0x62616c])],
  [([0x6469], [0x39353931]), ([0x656d616e], [0x2235335f656761705f30345f6b6369745f706f22]), ([0x657a697372646461], [0x6574756c6f736261]), ([0x65706f6373], [0x31]), ([0x666564], [0x323232312b343131312b323935]), ([0x6c6176], [0x364337317830]), ([0x676573], [0x37]), ([0x65707974], [0x62616c])],
  [([0x6469], [0x30363931]), ([0x656d616e], [0x2235335f656761705f38335f6b6369745f706f22]), ([0x657a697372646461], [0x6574756c6f736261]), ([0x65706f6373], [0x31]), ([0x666564], [0x353633312b3930362b323935]), ([0x6c6176], [0x364137317830]), ([0x676573], [0x37]), ([0x65707974], [0x62616c])],
  [([0x6469], [0x31363931]), ([0x656d616e], [0x22444022]), ([0x657a697372646461], [0x6574756c6f736261]), ([0x746e65726170], [0x32363931]), ([0x666564], [0x333932312b363332312b323935]), ([0x666572], [0x3239352b323935]), ([0x6c6176], [0x334137317830]), ([0x676573], [0x37]), ([0x65707974], [0x62616c])],
  [([0x6469], [0x32363931]), ([0x656d616e], [0x2235335f656761705f36335f6b6369745f706f22]), ([0x657a697372646461], [0x6574756c6f736261]), ([0x65706f6373], [0x31]), ([0x666564], [0x3036382b363332312b323935]), ([0x6c6176], [0x323737317830]), ([0x676573], [0x37]), ([0x65707974], [0x62616c])],
  [([0x6469], [0x33363931]), ([0x656d616e], [0x2235335f656761705f34335f6b6369745f706f22]), ([0x657a697372646461], [0x6574756c6f736261]), ([0x65706f6373], [0x31]), ([0x666564], [0x343030312b363330312b323935]), ([0x6c6176], [0x433437317830]), ([0x676573], [0x37]), ([0x65707974], [0x62616c])],
  [([0x6469], [0x34363931]), ([0x656d616e], [0x2235335f656761705f32335f6b6369745f706f22]), ([0x657a697372646461], [0x6574756c6f736261]), ([0x65706f6373], [0x31]), ([0x666564], [0x3234362b393230312b323935]), ([0x6c6176], [0x303337317830]), ([0x676573], [0x37]), ([0x65707974], [0x62616c])],
  [([0x6469], [0x35363931]), ([0x656d616e], [0x2235335f656761705f30335f6b6369745f706f22]), ([0x657a697372646461], [0x6574756c6f736261]), ([0x65706f6373], [0x31]), ([0x666564], [0x373330312b373130312b323935]), ([0x6c6176], [0x333137317830]), ([0x676573], [0x37]), ([0x65707974], [0x62616c])],
  [([0x6469], [0x36363931]), ([0x656d616e], [0x2235335f656761705f38325f6b6369745f706f22]), ([0x657a697372646461], [0x6574756c6f736261]), ([0x65706f6373], [0x31]), ([0x666564], [0x3231322b3637312b323935]), ([0x6c6176], [0x414636317830]), ([0x676573], [0x37]), ([0x65707974], [0x62616c])],
  [([0x6469], [0x37363931]), ([0x656d616e], [0x2235335f656761705f36325f6b6369745f706f22]), ([0x657a697372646461], [0x6574756c6f736261]), ([0x65706f6373], [0x31]), ([0x666564], [0x3038352b3831322b323935]), ([0x6c6176], [0x304536317830]), ([0x676573], [0x37]), ([0x65707974], [0x62616c])],
  [([0x6469], [0x38363931]), ([0x656d616e], [0x2235335f656761705f34325f6b6369745f706f22]), ([0x657a697372646461], [0x6574756c6f736261]), ([0x65706f6373], [0x31]), ([0x666564], [0x3837362b333232312b323935]), ([0x6c6176], [0x394336317830]), ([0x676573], [0x37]), ([0x65707974], [0x62616c])],
  [([0x6469], [0x39363931]), ([0x656d616e], [0x2235335f656761705f32325f6b6369745f706f22]), ([0x657a697372646461], [0x6574756c6f736261]), ([0x65706f6373], [0x31]), ([0x666564], [0x323931312b373033312b323935]), ([0x6c6176], [0x324236317830]), ([0x676573], [0x37]), ([0x65707974], [0x62616c])],
  [([0x6469], [0x30373931]), ([0x656d616e], [0x2235335f656761705f30325f6b6369745f706f22]), ([0x657a697372646461], [0x6574756c6f736261]), ([0x65706f6373], [0x31]), ([0x666564], [0x32332b373732312b323935]), ([0x6c6176], [0x453936317830]), ([0x676573], [0x37]), ([0x65707974], [0x62616c])],
  [([0x6469], [0x31373931]), ([0x656d616e], [0x22444022]), ([0x657a697372646461], [0x6574756c6f736261]), ([0x746e65726170], [0x32373931]), ([0x666564], [0x3430352b38392b323935]), ([0x666572], [0x3239352b323935]), ([0x6c6176], [0x423936317830]), ([0x676573], [0x37]), ([0x65707974], [0x62616c])],
  [([0x6469], [0x32373931]), ([0x656d616e], [0x2235335f656761705f38315f6b6369745f706f22]), ([0x657a697372646461], [0x6574756c6f736261]), ([0x65706f6373], [0x31]), ([0x666564], [0x323032312b38392b323935]), ([0x6c6176], [0x413636317830]), ([0x676573], [0x37]), ([0x65707974], [0x62616c])],
  [([0x6469], [0x33373931]), ([0x656d616e], [0x2235335f656761705f36315f6b6369745f706f22]), ([0x657a697372646461], [0x6574756c6f736261]), ([0x65706f6373], [0x31]), ([0x666564], [0x3032382b3332392b323935]), ([0x6c6176], [0x333536317830]), ([0x676573], [0x37]), ([0x65707974], [0x62616c])],
  [([0x6469], [0x34373931]), ([0x656d616e], [0x2235335f656761705f34315f6b6369745f706f22]), ([0x657a697372646461], [0x6574756c6f736261]), ([0x65706f6373], [0x31]), ([0x666564], [0x33312b3430332b323935]), ([0x6c6176], [0x333436317830]), ([0x676573], [0x37]), ([0x65707974], [0x62616c])],
  [([0x6469], [0x35373931]), ([0x656d616e], [0x2235335f656761705f32315f6b6369745f706f22]), ([0x657a697372646461], [0x6574756c6f736261]), ([0x65706f6373], [0x31]), ([0x666564], [0x3736372b383431312b323935]), ([0x6c6176], [0x323336317830]), ([0x676573], [0x37]), ([0x65707974], [0x62616c])],
  [([0x6469], [0x36373931]), ([0x656d616e], [0x2235335f656761705f30315f6b6369745f706f22]), ([0x657a697372646461], [0x6574756c6f736261]), ([0x65706f6373], [0x31]), ([0x666564], [0x3334392b3334372b323935]), ([0x6c6176], [0x353236317830]), ([0x676573], [0x37]), ([0x65707974], [0x62616c])],
  [([0x6469], [0x37373931]), ([0x656d616e], [0x2235335f656761705f385f6b6369745f706f22]), ([0x657a697372646461], [0x6574756c6f736261]), ([0x65706f6373], [0x31]), ([0x666564], [0x3132382b3037332b323935]), ([0x6c6176], [0x373136317830]), ([0x676573], [0x37]), ([0x65707974], [0x62616c])],
  [([0x6469], [0x38373931]), ([0x656d616e], [0x22385f6c6961745f35335f656761705f6b6369745f706f5f22]), ([0x657a697372646461], [0x6574756c6f736261]), ([0x65706f6373], [0x31]), ([0x666564], [0x3432312b3033362b3737352b323935]), ([0x6c6176], [0x313136317830]), ([0x676573], [0x37]), ([0x65707974], [0x62616c])],
  [([0x6469], [0x39373931]), ([0x656d616e], [0x2232315f6c6961745f35335f656761705f6b6369745f706f5f22]), ([0x657a697372646461], [0x6574756c6f736261]), ([0x65706f6373], [0x31]), ([0x666564], [0x3432312b383430312b3737352b323935]), ([0x666572], [0x323935]), ([0x6c6176], [0x453036317830]), ([0x676573], [0x37]), ([0x65707974], [0x62616c])],
  [([0x6469], [0x30383931]), ([0x656d616e], [0x22706d6a5f35335f656761705f365f6b6369745f706f5f22]), ([0x657a697372646461], [0x6574756c6f736261]), ([0x65706f6373], [0x31]), ([0x666564], [0x3735372b3737352b323935]), ([0x666572], [0x3239352b3239352b323935]), ([0x6c6176], [0x343136317830]), ([0x676573], [0x37]), ([0x65707974], [0x62616c])],
  [([0x6469], [0x31383931]), ([0x656d616e], [0x2236315f6c6961745f35335f656761705f6b6369745f706f5f22]), ([0x657a697372646461], [0x6574756c6f736261]), ([0x65706f6373], [0x31]), ([0x666564], [0x3432312b3837312b3737352b323935]), ([0x666572], [0x323935]), ([0x6c6176], [0x423036317830]), ([0x676573], [0x37]), ([0x65707974], [0x62616c])],
  [([0x6469], [0x32383931]), ([0x656d616e], [0x2230325f6c6961745f35335f656761705f6b6369745f706f5f22]), ([0x657a697372646461], [0x6574756c6f736261]), ([0x65706f6373], [0x31]), ([0x666564], [0x3432312b3238362b3737352b323935]), ([0x666572], [0x3239352b323935]), ([0x6c6176], [0x383036317830]), ([0x676573], [0x37]), ([0x65707974], [0x62616c])],
  [([0x6469], [0x33383931]), ([0x656d616e], [0x2235325f6c6961745f35335f656761705f6b6369745f706f5f22]), ([0x657a697372646461], [0x6574756c6f736261]), ([0x65706f6373], [0x31]), ([0x666564], [0x3432312b353431312b3737352b323935]), ([0x6c6176], [0x353036317830]), ([0x676573], [0x37]), ([0x65707974], [0x62616c])]]

/-- player/iivision.dbg, sym lines 1984-2015 -/
def symLines62 : List (List (List Nat × List Nat)) := [
  [([0x6469], [0x34383931]), ([0x656d616e], [0x2239325f6c6961745f35335f656761705f6b6369745f706f5f22]), ([0x657a697372646461], [0x6574756c6f736261]), ([0x65706f6373], [0x31]), ([0x666564], [0x3432312b343632312b3737352b323935]), ([0x6c6176], [0x323036317830]), ([0x676573], [0x37]), ([0x65707974], [0x62616c])],
  [([0x6469], [0x35383931]), ([0x656d616e], [0x2234335f6c6961745f35335f656761705f6b6369745f706f5f22]), ([0x657a697372646461], [0x6574756c6f736261]), ([0x65706f6373], [0x31]), ([0x666564], [0x3432312b3538342b3737352b323935]), ([0x666572], [0x323935]), ([0x6c6176], [0x464635317830]), ([0x676573], [0x37]), ([0x65707974], [0x62616c])],
  [([0x6469], [0x36383931]), ([0x656d616e], [0x2238335f6c6961745f35335f656761705f6b6369745f706f5f22]), ([0x657a697372646461], [0x6574756c6f736261]), ([0x65706f6373], [0x31]), ([0x666564], [0x3432312b3435352b3737352b323935]), ([0x666572], [0x323935]), ([0x6c6176], [0x434635317830]), ([0x676573], [0x37]), ([0x65707974], [0x62616c])],
  [([0x6469], [0x37383931]), ([0x656d616e], [0x2233345f6c6961745f35335f656761705f6b6369745f706f5f22]), ([0x657a697372646461], [0x6574756c6f736261]), ([0x65706f6373], [0x31]), ([0x666564], [0x3432312b383433312b3737352b323935]), ([0x666572], [0x323935]), ([0x6c6176], [0x394635317830]), ([0x676573], [0x37]), ([0x65707974], [0x62616c])],
  [([0x6469], [0x38383931]), ([0x656d616e], [0x2237345f6c6961745f35335f656761705f6b6369745f706f5f22]), ([0x657a697372646461], [0x6574756c6f736261]), ([0x65706f6373], [0x31]), ([0x666564], [0x3432312b3637372b3737352b323935]), ([0x6c6176], [0x364635317830]), ([0x676573], [0x37]), ([0x65707974], [0x62616c])],
  [([0x6469], [0x39383931]), ([0x656d616e], [0x2232355f6c6961745f35335f656761705f6b6369745f706f5f22]), ([0x657a697372646461], [0x6574756c6f736261]), ([0x65706f6373], [0x31]), ([0x666564], [0x3432312b3137362b3737352b323935]), ([0x666572], [0x323935]), ([0x6c6176], [0x334635317830]), ([0x676573], [0x37]), ([0x65707974], [0x62616c])],
  [([0x6469], [0x30393931]), ([0x656d616e], [0x2236355f6c6961745f35335f656761705f6b6369745f706f5f22]), ([0x657a697372646461], [0x6574756c6f736261]), ([0x65706f6373], [0x31]), ([0x666564], [0x3432312b3839342b3737352b323935]), ([0x666572], [0x323935]), ([0x6c6176], [0x304635317830]), ([0x676573], [0x37]), ([0x65707974], [0x62616c])],
  [([0x6469], [0x31393931]), ([0x656d616e], [0x2230365f6c6961745f35335f656761705f6b6369745f706f5f22]), ([0x657a697372646461], [0x6574756c6f736261]), ([0x65706f6373], [0x31]), ([0x666564], [0x3432312b353632312b3737352b323935]), ([0x6c6176], [0x444535317830]), ([0x676573], [0x37]), ([0x65707974], [0x62616c])],
  [([0x6469], [0x32393931]), ([0x656d616e], [0x2235335f656761705f365f6b6369745f706f22]), ([0x657a697372646461], [0x6574756c6f736261]), ([0x65706f6373], [0x31]), ([0x666564], [0x3432382b3737352b323935]), ([0x6c6176], [0x344535317830]), ([0x676573], [0x37]), ([0x65707974], [0x62616c])],
  [([0x6469], [0x33393931]), ([0x656d616e], [0x22375f6c6961745f35335f656761705f6b6369745f706f5f22]), ([0x657a697372646461], [0x6574756c6f736261]), ([0x65706f6373], [0x31]), ([0x666564], [0x3432312b3330392b3337332b323935]), ([0x6c6176], [0x454435317830]), ([0x676573], [0x37]), ([0x65707974], [0x62616c])],
  [([0x6469], [0x34393931]), ([0x656d616e], [0x2231315f6c6961745f35335f656761705f6b6369745f706f5f22]), ([0x657a697372646461], [0x6574756c6f736261]), ([0x65706f6373], [0x31]), ([0x666564], [0x3432312b333732312b3337332b323935]), ([0x6c6176], [0x424435317830]), ([0x676573], [0x37]), ([0x65707974], [0x62616c])],
  [([0x6469], [0x35393931]), ([0x656d616e], [0x22706d6a5f35335f656761705f345f6b6369745f706f5f22]), ([0x657a697372646461], [0x6574756c6f736261]), ([0x65706f6373], [0x31]), ([0x666564], [0x3134322b3337332b323935]), ([0x666572], [0x3239352b323935]), ([0x6c6176], [0x314535317830]), ([0x676573], [0x37]), ([0x65707974], [0x62616c])],
  [([0x6469], [0x36393931]), ([0x656d616e], [0x2235315f6c6961745f35335f656761705f6b6369745f706f5f22]), ([0x657a697372646461], [0x6574756c6f736261]), ([0x65706f6373], [0x31]), ([0x666564], [0x3432312b3538352b3337332b323935]), ([0x666572], [0x323935]), ([0x6c6176], [0x384435317830]), ([0x676573], [0x37]), ([0x65707974], [0x62616c])],
  [([0x6469], [0x37393931]), ([0x656d616e], [0x2239315f6c6961745f35335f656761705f6b6369745f706f5f22]), ([0x657a697372646461], [0x6574756c6f736261]), ([0x65706f6373], [0x31]), ([0x666564], [0x3432312b3737322b3337332b323935]), ([0x666572], [0x323935]), ([0x6c6176], [0x354435317830]), ([0x676573], [0x37]), ([0x65707974], [0x62616c])],
  [([0x6469], [0x38393931]), ([0x656d616e], [0x2234325f6c6961745f35335f656761705f6b6369745f706f5f22]), ([0x657a697372646461], [0x6574756c6f736261]), ([0x65706f6373], [0x31]), ([0x666564], [0x3432312b3831352b3337332b323935]), ([0x666572], [0x3239352b323935]), ([0x6c6176], [0x324435317830]), ([0x676573], [0x37]), ([0x65707974], [0x62616c])],
  [([0x6469], [0x39393931]), ([0x656d616e], [0x2238325f6c6961745f35335f656761705f6b6369745f706f5f22]), ([0x657a697372646461], [0x6574756c6f736261]), ([0x65706f6373], [0x31]), ([0x666564], [0x3432312b3436312b3337332b323935]), ([0x666572], [0x323935]), ([0x6c6176], [0x464335317830]), ([0x676573], [0x37]), ([0x65707974], [0x62616c])],
  [([0x6469], [0x30303032]), ([0x656d616e], [0x2233335f6c6961745f35335f656761705f6b6369745f706f5f22]), ([0x657a697372646461], [0x6574756c6f736261]), ([0x65706f6373], [0x31]), ([0x666564], [0x3432312b3435312b3337332b323935]), ([0x666572], [0x323935]), ([0x6c6176], [0x434335317830]), ([0x676573], [0x37]), ([0x65707974], [0x62616c])],
  [([0x6469], [0x31303032]), ([0x656d616e], [0x2237335f6c6961745f35335f656761705f6b6369745f706f5f22]), ([0x657a697372646461], [0x6574756c6f736261]), ([0x65706f6373], [0x31]), ([0x666564], [0x3432312b373532312b3337332b323935]), ([0x666572], [0x323935]), ([0x6c6176], [0x394335317830]), ([0x676573], [0x37]), ([0x65707974], [0x62616c])],
  [([0x6469], [0x32303032]), ([0x656d616e], [0x2232345f6c6961745f35335f656761705f6b6369745f706f5f22]), ([0x657a697372646461], [0x6574756c6f736261]), ([0x65706f6373], [0x31]), ([0x666564], [0x3432312b323033312b3337332b323935]), ([0x666572], [0x3239352b323935]), ([0x6c6176], [0x364335317830]), ([0x676573], [0x37]), ([0x65707974], [0x62616c])],
  [([0x6469], [0x33303032]), ([0x656d616e], [0x2236345f6c6961745f35335f656761705f6b6369745f706f5f22]), ([0x657a697372646461], [0x6574756c6f736261]), ([0x65706f6373], [0x31]), ([0x666564], [0x3432312b3530382b3337332b323935]), ([0x666572], [0x323935]), ([0x6c6176], [0x334335317830]), ([0x676573], [0x37]), ([0x65707974], [0x62616c])],
  [([0x6469], [0x34303032]), ([0x656d616e], [0x2231355f6c6961745f35335f656761705f6b6369745f706f5f22]), ([0x657a697372646461], [0x6574756c6f736261]), ([0x65706f6373], [0x31]), ([0x666564], [0x3432312b343231312b3337332b323935]), ([0x666572], [0x323935]), ([0x6c6176], [0x304335317830]), ([0x676573], [0x37]), ([0x65707974], [0x62616c])],
  [([0x6469], [0x35303032]), ([0x656d616e], [0x2235355f6c6961745f35335f656761705f6b6369745f706f5f22]), ([0x657a697372646461], [0x6574756c6f736261]), ([0x65706f6373], [0x31]), ([0x666564], [0x3432312b3332332b3337332b323935]), ([0x666572], [0x323935]), ([0x6c6176], [0x444235317830]), ([0x676573], [0x37]), ([0x65707974], [0x62616c])],
  [([0x6469], [0x36303032]), ([0x656d616e], [0x2239355f6c6961745f35335f656761705f6b6369745f706f5f22]), ([0x657a697372646461], [0x6574756c6f736261]), ([0x65706f6373], [0x31]), ([0x666564], [0x3432312b323431312b3337332b323935]), ([0x6c6176], [0x414235317830]), ([0x676573], [0x37]), ([0x65707974], [0x62616c])],
  [([0x6469], [0x37303032]), ([0x656d616e], [0x2235335f656761705f345f6b6369745f706f22]), ([0x657a697372646461], [0x6574756c6f736261]), ([0x65706f6373], [0x31]), ([0x666564], [0x323630312b3337332b323935]), ([0x6c6176], [0x304235317830]), ([0x676573], [0x37]), ([0x65707974], [0x62616c])],
  [([0x6469], [0x38303032]), ([0x656d616e], [0x22444022]), ([0x657a697372646461], [0x6574756c6f736261]), ([0x746e65726170], [0x39303032]), ([0x666564], [0x3435322b3833312b313737]), ([0x666572], [0x3137372b313737]), ([0x6c6176], [0x444135317830]), ([0x676573], [0x37]), ([0x65707974], [0x62616c])],
  [([0x6469], [0x39303032]), ([0x656d616e], [0x2234335f656761705f36365f6b6369745f706f22]), ([0x657a697372646461], [0x6574756c6f736261]), ([0x65706f6373], [0x31]), ([0x666564], [0x3739362b3833312b313737]), ([0x6c6176], [0x433735317830]), ([0x676573], [0x37]), ([0x65707974], [0x62616c])],
  [([0x6469], [0x30313032]), ([0x656d616e], [0x22444022]), ([0x657a697372646461], [0x6574756c6f736261]), ([0x746e65726170], [0x31313032]), ([0x666564], [0x3030372b313030312b313737]), ([0x666572], [0x3137372b313737]), ([0x6c6176], [0x393735317830]), ([0x676573], [0x37]), ([0x65707974], [0x62616c])],
  [([0x6469], [0x31313032]), ([0x656d616e], [0x2234335f656761705f34365f6b6369745f706f22]), ([0x657a697372646461], [0x6574756c6f736261]), ([0x65706f6373], [0x31]), ([0x666564], [0x3937392b313030312b313737]), ([0x6c6176], [0x383435317830]), ([0x676573], [0x37]), ([0x65707974], [0x62616c])],
  [([0x6469], [0x32313032]), ([0x656d616e], [0x22444022]), ([0x657a697372646461], [0x6574756c6f736261]), ([0x746e65726170], [0x33313032]), ([0x666564], [0x3033382b3436362b313737]), ([0x666572], [0x3137372b313737]), ([0x6c6176], [0x353435317830]), ([0x676573], [0x37]), ([0x65707974], [0x62616c])],
  [([0x6469], [0x33313032]), ([0x656d616e], [0x2234335f656761705f32365f6b6369745f706f22]), ([0x657a697372646461], [0x6574756c6f736261]), ([0x65706f6373], [0x31]), ([0x666564], [0x3236322b3436362b313737]), ([0x6c6176], [0x343135317830]), ([0x676573], [0x37]), ([0x65707974], [0x62616c])],
  [([0x6469], [0x34313032]), ([0x656d616e], [0x22444022]), ([0x657a697372646461], [0x6574756c6f736261]), ([0x746e65726170], [0x35313032]), ([0x666564], [0x3332382b3937372b313737]), ([0x666572], [0x3137372b313737]), ([0x6c6176], [0x313135317830]), ([0x676573], [0x37]), ([0x65707974], [0x62616c])],
  [([0x6469], [0x35313032]), ([0x656d616e], [0x2234335f656761705f30365f6b6369745f706f22]), ([0x657a697372646461], [0x6574756c6f736261]), ([0x65706f6373], [0x31]), ([0x666564], [0x3532372b3937372b313737]), ([0x6c6176], [0x304534317830]), ([0x676573], [0x37]), ([0x65707974], [0x62616c])]]

/-- player/iivision.dbg, sym lines 2016-2047 -/
def symLines63 : List (List (List Nat × List Nat)) := [
  [([0x6469], [0x36313032]), ([0x656d616e], [0x22444022]), ([0x657a697372646461], [0x6574756c6f736261]), ([0x746e65726170], [0x37313032]), ([0x666564], [0x383831312b3031352b313737]), ([0x666572], [0x3137372b313737]), ([0x6c6176], [0x444434317830]), ([0x676573], [0x37]), ([0x65707974], [0x62616c])],
  [([0x6469], [0x37313032]), ([0x656d616e], [0x2234335f656761705f38355f6b6369745f706f22]), ([0x657a697372646461], [0x6574756c6f736261]), ([0x65706f6373], [0x31]), ([0x666564], [0x3638392b3031352b313737]), ([0x6c6176], [0x434134317830]), ([0x676573], [0x37]), ([0x65707974], [0x62616c])],
  [([0x6469], [0x38313032]), ([0x656d616e], [0x22444022]), ([0x657a697372646461], [0x6574756c6f736261]), ([0x746e65726170], [0x39313032]), ([0x666564], [0x3130382b3430372b313737]), ([0x666572], [0x3137372b313737]), ([0x6c6176], [0x394134317830]), ([0x676573], [0x37]), ([0x65707974], [0x62616c])],
  [([0x6469], [0x39313032]), ([0x656d616e], [0x2234335f656761705f36355f6b6369745f706f22]), ([0x657a697372646461], [0x6574756c6f736261]), ([0x65706f6373], [0x31]), ([0x666564], [0x363832312b3430372b313737]), ([0x6c6176], [0x383734317830]), ([0x676573], [0x37]), ([0x65707974], [0x62616c])],
  [([0x6469], [0x30323032]), ([0x656d616e], [0x22444022]), ([0x657a697372646461], [0x6574756c6f736261]), ([0x746e65726170], [0x31323032]), ([0x666564], [0x323230312b3132362b313737]), ([0x666572], [0x3137372b313737]), ([0x6c6176], [0x353734317830]), ([0x676573], [0x37]), ([0x65707974], [0x62616c])],
  [([0x6469], [0x31323032]), ([0x656d616e], [0x2234335f656761705f34355f6b6369745f706f22]), ([0x657a697372646461], [0x6574756c6f736261]), ([0x65706f6373], [0x31]), ([0x666564], [0x313032312b3132362b313737]), ([0x6c6176], [0x343434317830]), ([0x676573], [0x37]), ([0x65707974], [0x62616c])],
  [([0x6469], [0x32323032]), ([0x656d616e], [0x2234335f656761705f32355f6b6369745f706f22]), ([0x657a697372646461], [0x6574756c6f736261]), ([0x65706f6373], [0x31]), ([0x666564], [0x3335312b3438382b313737]), ([0x6c6176], [0x393134317830]), ([0x676573], [0x37]), ([0x65707974], [0x62616c])],
  [([0x6469], [0x33323032]), ([0x656d616e], [0x2234335f656761705f30355f6b6369745f706f22]), ([0x657a697372646461], [0x6574756c6f736261]), ([0x65706f6373], [0x31]), ([0x666564], [0x3236392b3431312b313737]), ([0x6c6176], [0x314633317830]), ([0x676573], [0x37]), ([0x65707974], [0x62616c])],
  [([0x6469], [0x34323032]), ([0x656d616e], [0x2234335f656761705f38345f6b6369745f706f22]), ([0x657a697372646461], [0x6574756c6f736261]), ([0x65706f6373], [0x31]), ([0x666564], [0x3933342b363230312b313737]), ([0x6c6176], [0x384333317830]), ([0x676573], [0x37]), ([0x65707974], [0x62616c])],
  [([0x6469], [0x35323032]), ([0x656d616e], [0x2234335f656761705f36345f6b6369745f706f22]), ([0x657a697372646461], [0x6574756c6f736261]), ([0x65706f6373], [0x31]), ([0x666564], [0x343430312b3734362b313737]), ([0x6c6176], [0x334133317830]), ([0x676573], [0x37]), ([0x65707974], [0x62616c])],
  [([0x6469], [0x36323032]), ([0x656d616e], [0x2234335f656761705f34345f6b6369745f706f22]), ([0x657a697372646461], [0x6574756c6f736261]), ([0x65706f6373], [0x31]), ([0x666564], [0x3634352b3836322b313737]), ([0x6c6176], [0x443733317830]), ([0x676573], [0x37]), ([0x65707974], [0x62616c])],
  [([0x6469], [0x37323032]), ([0x656d616e], [0x2234335f656761705f32345f6b6369745f706f22]), ([0x657a697372646461], [0x6574756c6f736261]), ([0x65706f6373], [0x31]), ([0x666564], [0x37362b32362b313737]), ([0x6c6176], [0x413533317830]), ([0x676573], [0x37]), ([0x65707974], [0x62616c])],
  [([0x6469], [0x38323032]), ([0x656d616e], [0x2234335f656761705f30345f6b6369745f706f22]), ([0x657a697372646461], [0x6574756c6f736261]), ([0x65706f6373], [0x31]), ([0x666564], [0x323232312b343131312b313737]), ([0x6c6176], [0x373333317830]), ([0x676573], [0x37]), ([0x65707974], [0x62616c])],
  [([0x6469], [0x39323032]), ([0x656d616e], [0x2234335f656761705f38335f6b6369745f706f22]), ([0x657a697372646461], [0x6574756c6f736261]), ([0x65706f6373], [0x31]), ([0x666564], [0x353633312b3930362b313737]), ([0x6c6176], [0x373133317830]), ([0x676573], [0x37]), ([0x65707974], [0x62616c])],
  [([0x6469], [0x30333032]), ([0x656d616e], [0x22444022]), ([0x657a697372646461], [0x6574756c6f736261]), ([0x746e65726170], [0x31333032]), ([0x666564], [0x333932312b363332312b313737]), ([0x666572], [0x3137372b313737]), ([0x6c6176], [0x343133317830]), ([0x676573], [0x37]), ([0x65707974], [0x62616c])],
  [([0x6469], [0x31333032]), ([0x656d616e], [0x2234335f656761705f36335f6b6369745f706f22]), ([0x657a697372646461], [0x6574756c6f736261]), ([0x65706f6373], [0x31]), ([0x666564], [0x3036382b363332312b313737]), ([0x6c6176], [0x334532317830]), ([0x676573], [0x37]), ([0x65707974], [0x62616c])],
  [([0x6469], [0x32333032]), ([0x656d616e], [0x2234335f656761705f34335f6b6369745f706f22]), ([0x657a697372646461], [0x6574756c6f736261]), ([0x65706f6373], [0x31]), ([0x666564], [0x343030312b363330312b313737]), ([0x6c6176], [0x444232317830]), ([0x676573], [0x37]), ([0x65707974], [0x62616c])],
  [([0x6469], [0x33333032]), ([0x656d616e], [0x2234335f656761705f32335f6b6369745f706f22]), ([0x657a697372646461], [0x6574756c6f736261]), ([0x65706f6373], [0x31]), ([0x666564], [0x3234362b393230312b313737]), ([0x6c6176], [0x314132317830]), ([0x676573], [0x37]), ([0x65707974], [0x62616c])],
  [([0x6469], [0x34333032]), ([0x656d616e], [0x2234335f656761705f30335f6b6369745f706f22]), ([0x657a697372646461], [0x6574756c6f736261]), ([0x65706f6373], [0x31]), ([0x666564], [0x373330312b373130312b313737]), ([0x6c6176], [0x343832317830]), ([0x676573], [0x37]), ([0x65707974], [0x62616c])],
  [([0x6469], [0x35333032]), ([0x656d616e], [0x2234335f656761705f38325f6b6369745f706f22]), ([0x657a697372646461], [0x6574756c6f736261]), ([0x65706f6373], [0x31]), ([0x666564], [0x3231322b3637312b313737]), ([0x6c6176], [0x423632317830]), ([0x676573], [0x37]), ([0x65707974], [0x62616c])],
  [([0x6469], [0x36333032]), ([0x656d616e], [0x2234335f656761705f36325f6b6369745f706f22]), ([0x657a697372646461], [0x6574756c6f736261]), ([0x65706f6373], [0x31]), ([0x666564], [0x3038352b3831322b313737]), ([0x6c6176], [0x313532317830]), ([0x676573], [0x37]), ([0x65707974], [0x62616c])],
  [([0x6469], [0x37333032]), ([0x656d616e], [0x2234335f656761705f34325f6b6369745f706f22]), ([0x657a697372646461], [0x6574756c6f736261]), ([0x65706f6373], [0x31]), ([0x666564], [0x3837362b333232312b313737]), ([0x6c6176], [0x413332317830]), ([0x676573], [0x37]), ([0x65707974], [0x62616c])],
  [([0x6469], [0x38333032]), ([0x656d616e], [0x2234335f656761705f32325f6b6369745f706f22]), ([0x657a697372646461], [0x6574756c6f736261]), ([0x65706f6373], [0x31]), ([0x666564], [0x323931312b373033312b313737]), ([0x6c6176], [0x333232317830]), ([0x676573], [0x37]), ([0x65707974], [0x62616c])],
  [([0x6469], [0x39333032]), ([0x656d616e], [0x2234335f656761705f30325f6b6369745f706f22]), ([0x657a697372646461], [0x6574756c6f736261]), ([0x65706f6373], [0x31]), ([0x666564], [0x32332b373732312b313737]), ([0x6c6176], [0x463032317830]), ([0x676573], [0x37]), ([0x65707974], [0x62616c])],
  [([0x6469], [0x30343032]), ([0x656d616e], [0x22444022]), ([0x657a697372646461], [0x6574756c6f736261]), ([0x746e65726170], [0x31343032]), ([0x666564], [0x3430352b38392b313737]), ([0x666572], [0x3137372b313737]), ([0x6c6176], [0x433032317830]), ([0x676573], [0x37]), ([0x65707974], [0x62616c])],
  [([0x6469], [0x31343032]), ([0x656d616e], [0x2234335f656761705f38315f6b6369745f706f22]), ([0x657a697372646461], [0x6574756c6f736261]), ([0x65706f6373], [0x31]), ([0x666564], [0x323032312b38392b313737]), ([0x6c6176], [0x424431317830]), ([0x676573], [0x37]), ([0x65707974], [0x62616c])],
  [([0x6469], [0x32343032]), ([0x656d616e], [0x2234335f656761705f36315f6b6369745f706f22]), ([0x657a697372646461], [0x6574756c6f736261]), ([0x65706f6373], [0x31]), ([0x666564], [0x3032382b3332392b313737]), ([0x6c6176], [0x344331317830]), ([0x676573], [0x37]), ([0x65707974], [0x62616c])],
  [([0x6469], [0x33343032]), ([0x656d616e], [0x2234335f656761705f34315f6b6369745f706f22]), ([0x657a697372646461], [0x6574756c6f736261]), ([0x65706f6373], [0x31]), ([0x666564], [0x33312b3430332b313737]), ([0x6c6176], [0x344231317830]), ([0x676573], [0x37]), ([0x65707974], [0x62616c])],
  [([0x6469], [0x34343032]), ([0x656d616e], [0x2234335f656761705f32315f6b6369745f706f22]), ([0x657a697372646461], [0x6574756c6f736261]), ([0x65706f6373], [0x31]), ([0x666564], [0x3736372b383431312b313737]), ([0x6c6176], [0x334131317830]), ([0x676573], [0x37]), ([0x65707974], [0x62616c])],
  [([0x6469], [0x35343032]), ([0x656d616e], [0x2234335f656761705f30315f6b6369745f706f22]), ([0x657a697372646461], [0x6574756c6f736261]), ([0x65706f6373], [0x31]), ([0x666564], [0x3334392b3334372b313737]), ([0x6c6176], [0x363931317830]), ([0x676573], [0x37]), ([0x65707974], [0x62616c])],
  [([0x6469], [0x36343032]), ([0x656d616e], [0x2234335f656761705f385f6b6369745f706f22]), ([0x657a697372646461], [0x6574756c6f736261]), ([0x65706f6373], [0x31]), ([0x666564], [0x3132382b3037332b313737]), ([0x6c6176], [0x383831317830]), ([0x676573], [0x37]), ([0x65707974], [0x62616c])],
  [([0x6469], [0x37343032]), ([0x656d616e], [0x22385f6c6961745f34335f656761705f6b6369745f706f5f22]), ([0x657a697372646461], [0x6574756c6f736261]), ([0x65706f6373], [0x31]), ([0x666564], [0x3432312b3033362b3737352b313737]), ([0x6c6176], [0x323831317830]), ([0x676573], [0x37]), ([0x65707974], [0x62616c])]]

/-- player/iivision.dbg, sym lines 2048-2079 -/
def symLines64 : List (List (List Nat × List Nat)) := [
  [([0x6469], [0x38343032]), ([0x656d616e], [0x2232315f6c6961745f34335f656761705f6b6369745f706f5f22]), ([0x657a697372646461], [0x6574756c6f736261]), ([0x65706f6373], [0x31]), ([0x666564], [0x3432312b383430312b3737352b313737]), ([0x666572], [0x313737]), ([0x6c6176], [0x463731317830]), ([0x676573], [0x37]), ([0x65707974], [0x62616c])],
  [([0x6469], [0x39343032]), ([0x656d616e], [0x22706d6a5f34335f656761705f365f6b6369745f706f5f22]), ([0x657a697372646461], [0x6574756c6f736261]), ([0x65706f6373], [0x31]), ([0x666564], [0x3735372b3737352b313737]), ([0x666572], [0x3137372b3137372b313737]), ([0x6c6176], [0x353831317830]), ([0x676573], [0x37]), ([0x65707974], [0x62616c])],
  [([0x6469], [0x30353032]), ([0x656d616e], [0x2236315f6c6961745f34335f656761705f6b6369745f706f5f22]), ([0x657a697372646461], [0x6574756c6f736261]), ([0x65706f6373], [0x31]), ([0x666564], [0x3432312b3837312b3737352b313737]), ([0x666572], [0x313737]), ([0x6c6176], [0x433731317830]), ([0x676573], [0x37]), ([0x65707974], [0x62616c])],
  [([0x6469], [0x31353032]), ([0x656d616e], [0x2230325f6c6961745f34335f656761705f6b6369745f706f5f22]), ([0x657a697372646461], [0x6574756c6f736261]), ([0x65706f6373], [0x31]), ([0x666564], [0x3432312b3238362b3737352b313737]), ([0x666572], [0x3137372b313737]), ([0x6c6176], [0x393731317830]), ([0x676573], [0x37]), ([0x65707974], [0x62616c])],
  [([0x6469], [0x32353032]), ([0x656d616e], [0x2235325f6c6961745f34335f656761705f6b6369745f706f5f22]), ([0x657a697372646461], [0x6574756c6f736261]), ([0x65706f6373], [0x31]), ([0x666564], [0x3432312b353431312b3737352b313737]), ([0x6c6176], [0x363731317830]), ([0x676573], [0x37]), ([0x65707974], [0x62616c])],
  [([0x6469], [0x33353032]), ([0x656d616e], [0x2239325f6c6961745f34335f656761705f6b6369745f706f5f22]), ([0x657a697372646461], [0x6574756c6f736261]), ([0x65706f6373], [0x31]), ([0x666564], [0x3432312b343632312b3737352b313737]), ([0x6c6176], [0x333731317830]), ([0x676573], [0x37]), ([0x65707974], [0x62616c])],
  [([0x6469], [0x34353032]), ([0x656d616e], [0x2234335f6c6961745f34335f656761705f6b6369745f706f5f22]), ([0x657a697372646461], [0x6574756c6f736261]), ([0x65706f6373], [0x31]), ([0x666564], [0x3432312b3538342b3737352b313737]), ([0x666572], [0x313737]), ([0x6c6176], [0x303731317830]), ([0x676573], [0x37]), ([0x65707974], [0x62616c])],
  [([0x6469], [0x35353032]), ([0x656d616e], [0x2238335f6c6961745f34335f656761705f6b6369745f706f5f22]), ([0x657a697372646461], [0x6574756c6f736261]), ([0x65706f6373], [0x31]), ([0x666564], [0x3432312b3435352b3737352b313737]), ([0x666572], [0x313737]), ([0x6c6176], [0x443631317830]), ([0x676573], [0x37]), ([0x65707974], [0x62616c])],
  [([0x6469], [0x36353032]), ([0x656d616e], [0x2233345f6c6961745f34335f656761705f6b6369745f706f5f22]), ([0x657a697372646461], [0x6574756c6f736261]), ([0x65706f6373], [0x31]), ([0x666564], [0x3432312b383433312b3737352b313737]), ([0x666572], [0x313737]), ([0x6c6176], [0x413631317830]), ([0x676573], [0x37]), ([0x65707974], [0x62616c])],
  [([0x6469], [0x37353032]), ([0x656d616e], [0x2237345f6c6961745f34335f656761705f6b6369745f706f5f22]), ([0x657a697372646461], [0x6574756c6f736261]), ([0x65706f6373], [0x31]), ([0x666564], [0x3432312b3637372b3737352b313737]), ([0x6c6176], [0x373631317830]), ([0x676573], [0x37]), ([0x65707974], [0x62616c])],
  [([0x6469], [0x38353032]), ([0x656d616e], [0x2232355f6c6961745f34335f656761705f6b6369745f706f5f22]), ([0x657a697372646461], [0x6574756c6f736261]), ([0x65706f6373], [0x31]), ([0x666564], [0x3432312b3137362b3737352b313737]), ([0x666572], [0x313737]), ([0x6c6176], [0x343631317830]), ([0x676573], [0x37]), ([0x65707974], [0x62616c])],
  [([0x6469], [0x39353032]), ([0x656d616e], [0x2236355f6c6961745f34335f656761705f6b6369745f706f5f22]), ([0x657a697372646461], [0x6574756c6f736261]), ([0x65706f6373], [0x31]), ([0x666564], [0x3432312b3839342b3737352b313737]), ([0x666572], [0x313737]), ([0x6c6176], [0x313631317830]), ([0x676573], [0x37]), ([0x65707974], [0x62616c])],
  [([0x6469], [0x30363032]), ([0x656d616e], [0x2230365f6c6961745f34335f656761705f6b6369745f706f5f22]), ([0x657a697372646461], [0x6574756c6f736261]), ([0x65706f6373], [0x31]), ([0x666564], [0x3432312b353632312b3737352b313737]), ([0x6c6176], [0x453531317830]), ([0x676573], [0x37]), ([0x65707974], [0x62616c])],
  [([0x6469], [0x31363032]), ([0x656d616e], [0x2234335f656761705f365f6b6369745f706f22]), ([0x657a697372646461], [0x6574756c6f736261]), ([0x65706f6373], [0x31]), ([0x666564], [0x3432382b3737352b313737]), ([0x6c6176], [0x353531317830]), ([0x676573], [0x37]), ([0x65707974], [0x62616c])],
  [([0x6469], [0x32363032]), ([0x656d616e], [0x22375f6c6961745f34335f656761705f6b6369745f706f5f22]), ([0x657a697372646461], [0x6574756c6f736261]), ([0x65706f6373], [0x31]), ([0x666564], [0x3432312b3330392b3337332b313737]), ([0x6c6176], [0x463431317830]), ([0x676573], [0x37]), ([0x65707974], [0x62616c])],
  [([0x6469], [0x33363032]), ([0x656d616e], [0x2231315f6c6961745f34335f656761705f6b6369745f706f5f22]), ([0x657a697372646461], [0x6574756c6f736261]), ([0x65706f6373], [0x31]), ([0x666564], [0x3432312b333732312b3337332b313737]), ([0x6c6176], [0x433431317830]), ([0x676573], [0x37]), ([0x65707974], [0x62616c])],
  [([0x6469], [0x34363032]), ([0x656d616e], [0x22706d6a5f34335f656761705f345f6b6369745f706f5f22]), ([0x657a697372646461], [0x6574756c6f736261]), ([0x65706f6373], [0x31]), ([0x666564], [0x3134322b3337332b313737]), ([0x666572], [0x3137372b313737]), ([0x6c6176], [0x323531317830]), ([0x676573], [0x37]), ([0x65707974], [0x62616c])],
  [([0x6469], [0x35363032]), ([0x656d616e], [0x2235315f6c6961745f34335f656761705f6b6369745f706f5f22]), ([0x657a697372646461], [0x6574756c6f736261]), ([0x65706f6373], [0x31]), ([0x666564], [0x3432312b3538352b3337332b313737]), ([0x666572], [0x313737]), ([0x6c6176], [0x393431317830]), ([0x676573], [0x37]), ([0x65707974], [0x62616c])],
  [([0x6469], [0x36363032]), ([0x656d616e], [0x2239315f6c6961745f34335f656761705f6b6369745f706f5f22]), ([0x657a697372646461], [0x6574756c6f736261]), ([0x65706f6373], [0x31]), ([0x666564], [0x3432312b3737322b3337332b313737]), ([0x666572], [0x313737]), ([0x6c6176], [0x363431317830]), ([0x676573], [0x37]), ([0x65707974], [0x62616c])],
  [([0x6469], [0x37363032]), ([0x656d616e], [0x2234325f6c6961745f34335f656761705f6b6369745f706f5f22]), ([0x657a697372646461], [0x6574756c6f736261]), ([0x65706f6373], [0x31]), ([0x666564], [0x3432312b3831352b3337332b313737]), ([0x666572], [0x3137372b313737]), ([0x6c6176], [0x333431317830]), ([0x676573], [0x37]), ([0x65707974], [0x62616c])],
  [([0x6469], [0x38363032]), ([0x656d616e], [0x2238325f6c6961745f34335f656761705f6b6369745f706f5f22]), ([0x657a697372646461], [0x6574756c6f736261]), ([0x65706f6373], [0x31]), ([0x666564], [0x3432312b3436312b3337332b313737]), ([0x666572], [0x313737]), ([0x6c6176], [0x303431317830]), ([0x676573], [0x37]), ([0x65707974], [0x62616c])],
  [([0x6469], [0x39363032]), ([0x656d616e], [0x2233335f6c6961745f34335f656761705f6b6369745f706f5f22]), ([0x657a697372646461], [0x6574756c6f736261]), ([0x65706f6373], [0x31]), ([0x666564], [0x3432312b3435312b3337332b313737]), ([0x666572], [0x313737]), ([0x6c6176], [0x443331317830]), ([0x676573], [0x37]), ([0x65707974], [0x62616c])],
  [([0x6469], [0x30373032]), ([0x656d616e], [0x2237335f6c6961745f34335f656761705f6b6369745f706f5f22]), ([0x657a697372646461], [0x6574756c6f736261]), ([0x65706f6373], [0x31]), ([0x666564], [0x3432312b373532312b3337332b313737]), ([0x666572], [0x313737]), ([0x6c6176], [0x413331317830]), ([0x676573], [0x37]), ([0x65707974], [0x62616c])],
  [([0x6469], [0x31373032]), ([0x656d616e], [0x2232345f6c6961745f34335f656761705f6b6369745f706f5f22]), ([0x657a697372646461], [0x6574756c6f736261]), ([0x65706f6373], [0x31]), ([0x666564], [0x3432312b323033312b3337332b313737]), ([0x666572], [0x3137372b313737]), ([0x6c6176], [0x373331317830]), ([0x676573], [0x37]), ([0x65707974], [0x62616c])],
  [([0x6469], [0x32373032]), ([0x656d616e], [0x2236345f6c6961745f34335f656761705f6b6369745f706f5f22]), ([0x657a697372646461], [0x6574756c6f736261]), ([0x65706f6373], [0x31]), ([0x666564], [0x3432312b3530382b3337332b313737]), ([0x666572], [0x313737]), ([0x6c6176], [0x343331317830]), ([0x676573], [0x37]), ([0x65707974], [0x62616c])],
  [([0x6469], [0x33373032]), ([0x656d616e], [0x2231355f6c6961745f34335f656761705f6b6369745f706f5f22]), ([0x657a697372646461], [0x6574756c6f736261]), ([0x65706f6373], [0x31]), ([0x666564], [0x3432312b343231312b3337332b313737]), ([0x666572], [0x313737]), ([0x6c6176], [0x313331317830]), ([0x676573], [0x37]), ([0x65707974], [0x62616c])],
  [([0x6469], [0x34373032]), ([0x656d616e], [0x2235355f6c6961745f34335f656761705f6b6369745f706f5f22]), ([0x657a697372646461], [0x6574756c6f736261]), ([0x65706f6373], [0x31]), ([0x666564], [0x3432312b3332332b3337332b313737]), ([0x666572], [0x313737]), ([0x6c6176], [0x453231317830]), ([0x676573], [0x37]), ([0x65707974], [0x62616c])],
  [([0x6469], [0x35373032]), ([0x656d616e], [0x2239355f6c6961745f34335f656761705f6b6369745f706f5f22]), ([0x657a697372646461], [0x6574756c6f736261]), ([0x65706f6373], [0x31]), ([0x666564], [0x3432312b323431312b3337332b313737]), ([0x6c6176], [0x423231317830]), ([0x676573], [0x37]), ([0x65707974], [0x62616c])],
  [([0x6469], [0x36373032]), ([0x656d616e], [0x2234335f656761705f345f6b6369745f706f22]), ([0x657a697372646461], [0x6574756c6f736261]), ([0x65706f6373], [0x31]), ([0x666564], [0x323630312b3337332b313737]), ([0x6c6176], [0x313231317830]), ([0x676573], [0x37]), ([0x65707974], [0x62616c])],
  [([0x6469], [0x37373032]), ([0x656d616e], [0x22444022]), ([0x657a697372646461], [0x6574756c6f736261]), ([0x746e65726170], [0x38373032]), ([0x666564], [0x3435322b3833312b343134]), ([0x666572], [0x3431342b343134]), ([0x6c6176], [0x453131317830]), ([0x676573], [0x37]), ([0x65707974], [0x62616c])],
  [([0x6469], [0x38373032]), ([0x656d616e], [0x2233335f656761705f36365f6b6369745f706f22]), ([0x657a697372646461], [0x6574756c6f736261]), ([0x65706f6373], [0x31]), ([0x666564], [0x3739362b3833312b343134]), ([0x6c6176], [0x444530317830]), ([0x676573], [0x37]), ([0x65707974], [0x62616c])],
  [([0x6469], [0x39373032]), ([0x656d616e], [0x22444022]), ([0x657a697372646461], [0x6574756c6f736261]), ([0x746e65726170], [0x30383032]), ([0x666564], [0x3030372b313030312b343134]), ([0x666572], [0x3431342b343134]), ([0x6c6176], [0x414530317830]), ([0x676573], [0x37]), ([0x65707974], [0x62616c])]]

/-- player/iivision.dbg, sym lines 2080-2111 -/
def symLines65 : List (List (List Nat × List Nat)) := [
  [([0x6469], [0x30383032]), ([0x656d616e], [0x2233335f656761705f34365f6b6369745f706f22]), ([0x657a697372646461], [0x6574756c6f736261]), ([0x65706f6373], [0x31]), ([0x666564], [0x3937392b313030312b343134]), ([0x6c6176], [0x394230317830]), ([0x676573], [0x37]), ([0x65707974], [0x62616c])],
  [([0x6469], [0x31383032]), ([0x656d616e], [0x22444022]), ([0x657a697372646461], [0x6574756c6f736261]), ([0x746e65726170], [0x32383032]), ([0x666564], [0x3033382b3436362b343134]), ([0x666572], [0x3431342b343134]), ([0x6c6176], [0x364230317830]), ([0x676573], [0x37]), ([0x65707974], [0x62616c])],
  [([0x6469], [0x32383032]), ([0x656d616e], [0x2233335f656761705f32365f6b6369745f706f22]), ([0x657a697372646461], [0x6574756c6f736261]), ([0x65706f6373], [0x31]), ([0x666564], [0x3236322b3436362b343134]), ([0x6c6176], [0x353830317830]), ([0x676573], [0x37]), ([0x65707974], [0x62616c])],
  [([0x6469], [0x33383032]), ([0x656d616e], [0x22444022]), ([0x657a697372646461], [0x6574756c6f736261]), ([0x746e65726170], [0x34383032]), ([0x666564], [0x3332382b3937372b343134]), ([0x666572], [0x3431342b343134]), ([0x6c6176], [0x323830317830]), ([0x676573], [0x37]), ([0x65707974], [0x62616c])],
  [([0x6469], [0x34383032]), ([0x656d616e], [0x2233335f656761705f30365f6b6369745f706f22]), ([0x657a697372646461], [0x6574756c6f736261]), ([0x65706f6373], [0x31]), ([0x666564], [0x3532372b3937372b343134]), ([0x6c6176], [0x313530317830]), ([0x676573], [0x37]), ([0x65707974], [0x62616c])],
  [([0x6469], [0x35383032]), ([0x656d616e], [0x22444022]), ([0x657a697372646461], [0x6574756c6f736261]), ([0x746e65726170], [0x36383032]), ([0x666564], [0x383831312b3031352b343134]), ([0x666572], [0x3431342b343134]), ([0x6c6176], [0x453430317830]), ([0x676573], [0x37]), ([0x65707974], [0x62616c])],
  [([0x6469], [0x36383032]), ([0x656d616e], [0x2233335f656761705f38355f6b6369745f706f22]), ([0x657a697372646461], [0x6574756c6f736261]), ([0x65706f6373], [0x31]), ([0x666564], [0x3638392b3031352b343134]), ([0x6c6176], [0x443130317830]), ([0x676573], [0x37]), ([0x65707974], [0x62616c])],
  [([0x6469], [0x37383032]), ([0x656d616e], [0x22444022]), ([0x657a697372646461], [0x6574756c6f736261]), ([0x746e65726170], [0x38383032]), ([0x666564], [0x3130382b3430372b343134]), ([0x666572], [0x3431342b343134]), ([0x6c6176], [0x413130317830]), ([0x676573], [0x37]), ([0x65707974], [0x62616c])],
  [([0x6469], [0x38383032]), ([0x656d616e], [0x2233335f656761705f36355f6b6369745f706f22]), ([0x657a697372646461], [0x6574756c6f736261]), ([0x65706f6373], [0x31]), ([0x666564], [0x363832312b3430372b343134]), ([0x6c6176], [0x3945467830]), ([0x676573], [0x37]), ([0x65707974], [0x62616c])],
  [([0x6469], [0x39383032]), ([0x656d616e], [0x22444022]), ([0x657a697372646461], [0x6574756c6f736261]), ([0x746e65726170], [0x30393032]), ([0x666564], [0x323230312b3132362b343134]), ([0x666572], [0x3431342b343134]), ([0x6c6176], [0x3645467830]), ([0x676573], [0x37]), ([0x65707974], [0x62616c])],
  [([0x6469], [0x30393032]), ([0x656d616e], [0x2233335f656761705f34355f6b6369745f706f22]), ([0x657a697372646461], [0x6574756c6f736261]), ([0x65706f6373], [0x31]), ([0x666564], [0x313032312b3132362b343134]), ([0x6c6176], [0x3542467830]), ([0x676573], [0x37]), ([0x65707974], [0x62616c])],
  [([0x6469], [0x31393032]), ([0x656d616e], [0x2233335f656761705f32355f6b6369745f706f22]), ([0x657a697372646461], [0x6574756c6f736261]), ([0x65706f6373], [0x31]), ([0x666564], [0x3335312b3438382b343134]), ([0x6c6176], [0x4138467830]), ([0x676573], [0x37]), ([0x65707974], [0x62616c])],
  [([0x6469], [0x32393032]), ([0x656d616e], [0x2233335f656761705f30355f6b6369745f706f22]), ([0x657a697372646461], [0x6574756c6f736261]), ([0x65706f6373], [0x31]), ([0x666564], [0x3236392b3431312b343134]), ([0x6c6176], [0x3236467830]), ([0x676573], [0x37]), ([0x65707974], [0x62616c])],
  [([0x6469], [0x33393032]), ([0x656d616e], [0x2233335f656761705f38345f6b6369745f706f22]), ([0x657a697372646461], [0x6574756c6f736261]), ([0x65706f6373], [0x31]), ([0x666564], [0x3933342b363230312b343134]), ([0x6c6176], [0x3933467830]), ([0x676573], [0x37]), ([0x65707974], [0x62616c])],
  [([0x6469], [0x34393032]), ([0x656d616e], [0x2233335f656761705f36345f6b6369745f706f22]), ([0x657a697372646461], [0x6574756c6f736261]), ([0x65706f6373], [0x31]), ([0x666564], [0x343430312b3734362b343134]), ([0x6c6176], [0x3431467830]), ([0x676573], [0x37]), ([0x65707974], [0x62616c])],
  [([0x6469], [0x35393032]), ([0x656d616e], [0x2233335f656761705f34345f6b6369745f706f22]), ([0x657a697372646461], [0x6574756c6f736261]), ([0x65706f6373], [0x31]), ([0x666564], [0x3634352b3836322b343134]), ([0x6c6176], [0x4545457830]), ([0x676573], [0x37]), ([0x65707974], [0x62616c])],
  [([0x6469], [0x36393032]), ([0x656d616e], [0x2233335f656761705f32345f6b6369745f706f22]), ([0x657a697372646461], [0x6574756c6f736261]), ([0x65706f6373], [0x31]), ([0x666564], [0x37362b32362b343134]), ([0x6c6176], [0x4243457830]), ([0x676573], [0x37]), ([0x65707974], [0x62616c])],
  [([0x6469], [0x37393032]), ([0x656d616e], [0x2233335f656761705f30345f6b6369745f706f22]), ([0x657a697372646461], [0x6574756c6f736261]), ([0x65706f6373], [0x31]), ([0x666564], [0x323232312b343131312b343134]), ([0x6c6176], [0x3841457830]), ([0x676573], [0x37]), ([0x65707974], [0x62616c])],
  [([0x6469], [0x38393032]), ([0x656d616e], [0x2233335f656761705f38335f6b6369745f706f22]), ([0x657a697372646461], [0x6574756c6f736261]), ([0x65706f6373], [0x31]), ([0x666564], [0x353633312b3930362b343134]), ([0x6c6176], [0x3838457830]), ([0x676573], [0x37]), ([0x65707974], [0x62616c])],
  [([0x6469], [0x39393032]), ([0x656d616e], [0x22444022]), ([0x657a697372646461], [0x6574756c6f736261]), ([0x746e65726170], [0x30303132]), ([0x666564], [0x333932312b363332312b343134]), ([0x666572], [0x3431342b343134]), ([0x6c6176], [0x3538457830]), ([0x676573], [0x37]), ([0x65707974], [0x62616c])],
  [([0x6469], [0x30303132]), ([0x656d616e], [0x2233335f656761705f36335f6b6369745f706f22]), ([0x657a697372646461], [0x6574756c6f736261]), ([0x65706f6373], [0x31]), ([0x666564], [0x3036382b363332312b343134]), ([0x6c6176], [0x3435457830]), ([0x676573], [0x37]), ([0x65707974], [0x62616c])],
  [([0x6469], [0x31303132]), ([0x656d616e], [0x2233335f656761705f34335f6b6369745f706f22]), ([0x657a697372646461], [0x6574756c6f736261]), ([0x65706f6373], [0x31]), ([0x666564], [0x343030312b363330312b343134]), ([0x6c6176], [0x4532457830]), ([0x676573], [0x37]), ([0x65707974], [0x62616c])],
  [([0x6469], [0x32303132]), ([0x656d616e], [0x2233335f656761705f32335f6b6369745f706f22]), ([0x657a697372646461], [0x6574756c6f736261]), ([0x65706f6373], [0x31]), ([0x666564], [0x3234362b393230312b343134]), ([0x6c6176], [0x3231457830]), ([0x676573], [0x37]), ([0x65707974], [0x62616c])],
  [([0x6469], [0x33303132]), ([0x656d616e], [0x2233335f656761705f30335f6b6369745f706f22]), ([0x657a697372646461], [0x6574756c6f736261]), ([0x65706f6373], [0x31]), ([0x666564], [0x373330312b373130312b343134]), ([0x6c6176], [0x3546447830]), ([0x676573], [0x37]), ([0x65707974], [0x62616c])],
  [([0x6469], [0x34303132]), ([0x656d616e], [0x2233335f656761705f38325f6b6369745f706f22]), ([0x657a697372646461], [0x6574756c6f736261]), ([0x65706f6373], [0x31]), ([0x666564], [0x3231322b3637312b343134]), ([0x6c6176], [0x4344447830]), ([0x676573], [0x37]), ([0x65707974], [0x62616c])],
  [([0x6469], [0x35303132]), ([0x656d616e], [0x2233335f656761705f36325f6b6369745f706f22]), ([0x657a697372646461], [0x6574756c6f736261]), ([0x65706f6373], [0x31]), ([0x666564], [0x3038352b3831322b343134]), ([0x6c6176], [0x3243447830]), ([0x676573], [0x37]), ([0x65707974], [0x62616c])],
  [([0x6469], [0x36303132]), ([0x656d616e], [0x2233335f656761705f34325f6b6369745f706f22]), ([0x657a697372646461], [0x6574756c6f736261]), ([0x65706f6373], [0x31]), ([0x666564], [0x3837362b333232312b343134]), ([0x6c6176], [0x4241447830]), ([0x676573], [0x37]), ([0x65707974], [0x62616c])],
  [([0x6469], [0x37303132]), ([0x656d616e], [0x2233335f656761705f32325f6b6369745f706f22]), ([0x657a697372646461], [0x6574756c6f736261]), ([0x65706f6373], [0x31]), ([0x666564], [0x323931312b373033312b343134]), ([0x6c6176], [0x3439447830]), ([0x676573], [0x37]), ([0x65707974], [0x62616c])],
  [([0x6469], [0x38303132]), ([0x656d616e], [0x2233335f656761705f30325f6b6369745f706f22]), ([0x657a697372646461], [0x6574756c6f736261]), ([0x65706f6373], [0x31]), ([0x666564], [0x32332b373732312b343134]), ([0x6c6176], [0x3038447830]), ([0x676573], [0x37]), ([0x65707974], [0x62616c])],
  [([0x6469], [0x39303132]), ([0x656d616e], [0x22444022]), ([0x657a697372646461], [0x6574756c6f736261]), ([0x746e65726170], [0x30313132]), ([0x666564], [0x3430352b38392b343134]), ([0x666572], [0x3431342b343134]), ([0x6c6176], [0x4437447830]), ([0x676573], [0x37]), ([0x65707974], [0x62616c])],
  [([0x6469], [0x30313132]), ([0x656d616e], [0x2233335f656761705f38315f6b6369745f706f22]), ([0x657a697372646461], [0x6574756c6f736261]), ([0x65706f6373], [0x31]), ([0x666564], [0x323032312b38392b343134]), ([0x6c6176], [0x4334447830]), ([0x676573], [0x37]), ([0x65707974], [0x62616c])],
  [([0x6469], [0x31313132]), ([0x656d616e], [0x2233335f656761705f36315f6b6369745f706f22]), ([0x657a697372646461], [0x6574756c6f736261]), ([0x65706f6373], [0x31]), ([0x666564], [0x3032382b3332392b343134]), ([0x6c6176], [0x3533447830]), ([0x676573], [0x37]), ([0x65707974], [0x62616c])]]

/-- player/iivision.dbg, sym lines 2112-2143 -/
def symLines66 : List (List (List Nat × List Nat)) := [
  [([0x6469], [0x32313132]), ([0x656d616e], [0x2233335f656761705f34315f6b6369745f706f22]), ([0x657a697372646461], [0x6574756c6f736261]), ([0x65706f6373], [0x31]), ([0x666564], [0x33312b3430332b343134]), ([0x6c6176], [0x3532447830]), ([0x676573], [0x37]), ([0x65707974], [0x62616c])],
  [([0x6469], [0x33313132]), ([0x656d616e], [0x2233335f656761705f32315f6b6369745f706f22]), ([0x657a697372646461], [0x6574756c6f736261]), ([0x65706f6373], [0x31]), ([0x666564], [0x3736372b383431312b343134]), ([0x6c6176], [0x3431447830]), ([0x676573], [0x37]), ([0x65707974], [0x62616c])],
  [([0x6469], [0x34313132]), ([0x656d616e], [0x2233335f656761705f30315f6b6369745f706f22]), ([0x657a697372646461], [0x6574756c6f736261]), ([0x65706f6373], [0x31]), ([0x666564], [0x3334392b3334372b343134]), ([0x6c6176], [0x3730447830]), ([0x676573], [0x37]), ([0x65707974], [0x62616c])],
  [([0x6469], [0x35313132]), ([0x656d616e], [0x2233335f656761705f385f6b6369745f706f22]), ([0x657a697372646461], [0x6574756c6f736261]), ([0x65706f6373], [0x31]), ([0x666564], [0x3132382b3037332b343134]), ([0x6c6176], [0x3946437830]), ([0x676573], [0x37]), ([0x65707974], [0x62616c])],
  [([0x6469], [0x36313132]), ([0x656d616e], [0x22385f6c6961745f33335f656761705f6b6369745f706f5f22]), ([0x657a697372646461], [0x6574756c6f736261]), ([0x65706f6373], [0x31]), ([0x666564], [0x3432312b3033362b3737352b343134]), ([0x6c6176], [0x3346437830]), ([0x676573], [0x37]), ([0x65707974], [0x62616c])],
  [([0x6469], [0x37313132]), ([0x656d616e], [0x2232315f6c6961745f33335f656761705f6b6369745f706f5f22]), ([0x657a697372646461], [0x6574756c6f736261]), ([0x65706f6373], [0x31]), ([0x666564], [0x3432312b383430312b3737352b343134]), ([0x666572], [0x343134]), ([0x6c6176], [0x3046437830]), ([0x676573], [0x37]), ([0x65707974], [0x62616c])],
  [([0x6469], [0x38313132]), ([0x656d616e], [0x22706d6a5f33335f656761705f365f6b6369745f706f5f22]), ([0x657a697372646461], [0x6574756c6f736261]), ([0x65706f6373], [0x31]), ([0x666564], [0x3735372b3737352b343134]), ([0x666572], [0x3431342b3431342b343134]), ([0x6c6176], [0x3646437830]), ([0x676573], [0x37]), ([0x65707974], [0x62616c])],
  [([0x6469], [0x39313132]), ([0x656d616e], [0x2236315f6c6961745f33335f656761705f6b6369745f706f5f22]), ([0x657a697372646461], [0x6574756c6f736261]), ([0x65706f6373], [0x31]), ([0x666564], [0x3432312b3837312b3737352b343134]), ([0x666572], [0x343134]), ([0x6c6176], [0x4445437830]), ([0x676573], [0x37]), ([0x65707974], [0x62616c])],
  [([0x6469], [0x30323132]), ([0x656d616e], [0x2230325f6c6961745f33335f656761705f6b6369745f706f5f22]), ([0x657a697372646461], [0x6574756c6f736261]), ([0x65706f6373], [0x31]), ([0x666564], [0x3432312b3238362b3737352b343134]), ([0x666572], [0x3431342b343134]), ([0x6c6176], [0x4145437830]), ([0x676573], [0x37]), ([0x65707974], [0x62616c])],
  [([0x6469], [0x31323132]), ([0x656d616e], [0x2235325f6c6961745f33335f656761705f6b6369745f706f5f22]), ([0x657a697372646461], [0x6574756c6f736261]), ([0x65706f6373], [0x31]), ([0x666564], [0x3432312b353431312b3737352b343134]), ([0x6c6176], [0x3745437830]), ([0x676573], [0x37]), ([0x65707974], [0x62616c])],
  [([0x6469], [0x32323132]), ([0x656d616e], [0x2239325f6c6961745f33335f656761705f6b6369745f706f5f22]), ([0x657a697372646461], [0x6574756c6f736261]), ([0x65706f6373], [0x31]), ([0x666564], [0x3432312b343632312b3737352b343134]), ([0x6c6176], [0x3445437830]), ([0x676573], [0x37]), ([0x65707974], [0x62616c])],
  [([0x6469], [0x33323132]), ([0x656d616e], [0x2234335f6c6961745f33335f656761705f6b6369745f706f5f22]), ([0x657a697372646461], [0x6574756c6f736261]), ([0x65706f6373], [0x31]), ([0x666564], [0x3432312b3538342b3737352b343134]), ([0x666572], [0x343134]), ([0x6c6176], [0x3145437830]), ([0x676573], [0x37]), ([0x65707974], [0x62616c])],
  [([0x6469], [0x34323132]), ([0x656d616e], [0x2238335f6c6961745f33335f656761705f6b6369745f706f5f22]), ([0x657a697372646461], [0x6574756c6f736261]), ([0x65706f6373], [0x31]), ([0x666564], [0x3432312b3435352b3737352b343134]), ([0x666572], [0x343134]), ([0x6c6176], [0x4544437830]), ([0x676573], [0x37]), ([0x65707974], [0x62616c])],
  [([0x6469], [0x35323132]), ([0x656d616e], [0x2233345f6c6961745f33335f656761705f6b6369745f706f5f22]), ([0x657a697372646461], [0x6574756c6f736261]), ([0x65706f6373], [0x31]), ([0x666564], [0x3432312b383433312b3737352b343134]), ([0x666572], [0x343134]), ([0x6c6176], [0x4244437830]), ([0x676573], [0x37]), ([0x65707974], [0x62616c])],
  [([0x6469], [0x36323132]), ([0x656d616e], [0x2237345f6c6961745f33335f656761705f6b6369745f706f5f22]), ([0x657a697372646461], [0x6574756c6f736261]), ([0x65706f6373], [0x31]), ([0x666564], [0x3432312b3637372b3737352b343134]), ([0x6c6176], [0x3844437830]), ([0x676573], [0x37]), ([0x65707974], [0x62616c])],
  [([0x6469], [0x37323132]), ([0x656d616e], [0x2232355f6c6961745f33335f656761705f6b6369745f706f5f22]), ([0x657a697372646461], [0x6574756c6f736261]), ([0x65706f6373], [0x31]), ([0x666564], [0x3432312b3137362b3737352b343134]), ([0x666572], [0x343134]), ([0x6c6176], [0x3544437830]), ([0x676573], [0x37]), ([0x65707974], [0x62616c])],
  [([0x6469], [0x38323132]), ([0x656d616e], [0x2236355f6c6961745f33335f656761705f6b6369745f706f5f22]), ([0x657a697372646461], [0x6574756c6f736261]), ([0x65706f6373], [0x31]), ([0x666564], [0x3432312b3839342b3737352b343134]), ([0x666572], [0x343134]), ([0x6c6176], [0x3244437830]), ([0x676573], [0x37]), ([0x65707974], [0x62616c])],
  [([0x6469], [0x39323132]), ([0x656d616e], [0x2230365f6c6961745f33335f656761705f6b6369745f706f5f22]), ([0x657a697372646461], [0x6574756c6f736261]), ([0x65706f6373], [0x31]), ([0x666564], [0x3432312b353632312b3737352b343134]), ([0x6c6176], [0x4643437830]), ([0x676573], [0x37]), ([0x65707974], [0x62616c])],
  [([0x6469], [0x30333132]), ([0x656d616e], [0x2233335f656761705f365f6b6369745f706f22]), ([0x657a697372646461], [0x6574756c6f736261]), ([0x65706f6373], [0x31]), ([0x666564], [0x3432382b3737352b343134]), ([0x6c6176], [0x3643437830]), ([0x676573], [0x37]), ([0x65707974], [0x62616c])],
  [([0x6469], [0x31333132]), ([0x656d616e], [0x22375f6c6961745f33335f656761705f6b6369745f706f5f22]), ([0x657a697372646461], [0x6574756c6f736261]), ([0x65706f6373], [0x31]), ([0x666564], [0x3432312b3330392b3337332b343134]), ([0x6c6176], [0x3043437830]), ([0x676573], [0x37]), ([0x65707974], [0x62616c])],
  [([0x6469], [0x32333132]), ([0x656d616e], [0x2231315f6c6961745f33335f656761705f6b6369745f706f5f22]), ([0x657a697372646461], [0x6574756c6f736261]), ([0x65706f6373], [0x31]), ([0x666564], [0x3432312b333732312b3337332b343134]), ([0x6c6176], [0x4442437830]), ([0x676573], [0x37]), ([0x65707974], [0x62616c])],
  [([0x6469], [0x33333132]), ([0x656d616e], [0x22706d6a5f33335f656761705f345f6b6369745f706f5f22]), ([0x657a697372646461], [0x6574756c6f736261]), ([0x65706f6373], [0x31]), ([0x666564], [0x3134322b3337332b343134]), ([0x666572], [0x3431342b343134]), ([0x6c6176], [0x3343437830]), ([0x676573], [0x37]), ([0x65707974], [0x62616c])],
  [([0x6469], [0x34333132]), ([0x656d616e], [0x2235315f6c6961745f33335f656761705f6b6369745f706f5f22]), ([0x657a697372646461], [0x6574756c6f736261]), ([0x65706f6373], [0x31]), ([0x666564], [0x3432312b3538352b3337332b343134]), ([0x666572], [0x343134]), ([0x6c6176], [0x4142437830]), ([0x676573], [0x37]), ([0x65707974], [0x62616c])],
  [([0x6469], [0x35333132]), ([0x656d616e], [0x2239315f6c6961745f33335f656761705f6b6369745f706f5f22]), ([0x657a697372646461], [0x6574756c6f736261]), ([0x65706f6373], [0x31]), ([0x666564], [0x3432312b3737322b3337332b343134]), ([0x666572], [0x343134]), ([0x6c6176], [0x3742437830]), ([0x676573], [0x37]), ([0x65707974], [0x62616c])],
  [([0x6469], [0x36333132]), ([0x656d616e], [0x2234325f6c6961745f33335f656761705f6b6369745f706f5f22]), ([0x657a697372646461], [0x6574756c6f736261]), ([0x65706f6373], [0x31]), ([0x666564], [0x3432312b3831352b3337332b343134]), ([0x666572], [0x3431342b343134]), ([0x6c6176], [0x3442437830]), ([0x676573], [0x37]), ([0x65707974], [0x62616c])],
  [([0x6469], [0x37333132]), ([0x656d616e], [0x2238325f6c6961745f33335f656761705f6b6369745f706f5f22]), ([0x657a697372646461], [0x6574756c6f736261]), ([0x65706f6373], [0x31]), ([0x666564], [0x3432312b3436312b3337332b343134]), ([0x666572], [0x343134]), ([0x6c6176], [0x3142437830]), ([0x676573], [0x37]), ([0x65707974], [0x62616c])],
  [([0x6469], [0x38333132]), ([0x656d616e], [0x2233335f6c6961745f33335f656761705f6b6369745f706f5f22]), ([0x657a697372646461], [0x6574756c6f736261]), ([0x65706f6373], [0x31]), ([0x666564], [0x3432312b3435312b3337332b343134]), ([0x666572], [0x343134]), ([0x6c6176], [0x4541437830]), ([0x676573], [0x37]), ([0x65707974], [0x62616c])],
  [([0x6469], [0x39333132]), ([0x656d616e], [0x2237335f6c6961745f33335f656761705f6b6369745f706f5f22]), ([0x657a697372646461], [0x6574756c6f736261]), ([0x65706f6373], [0x31]), ([0x666564], [0x3432312b373532312b3337332b343134]), ([0x666572], [0x343134]), ([0x6c6176], [0x4241437830]), ([0x676573], [0x37]), ([0x65707974], [0x62616c])],
  [([0x6469], [0x30343132]), ([0x656d616e], [0x2232345f6c6961745f33335f656761705f6b6369745f706f5f22]), ([0x657a697372646461], [0x6574756c6f736261]), ([0x65706f6373], [0x31]), ([0x666564], [0x3432312b323033312b3337332b343134]), ([0x666572], [0x3431342b343134]), ([0x6c6176], [0x3841437830]), ([0x676573], [0x37]), ([0x65707974], [0x62616c])],
  [([0x6469], [0x31343132]), ([0x656d616e], [0x2236345f6c6961745f33335f656761705f6b6369745f706f5f22]), ([0x657a697372646461], [0x6574756c6f736261]), ([0x65706f6373], [0x31]), ([0x666564], [0x3432312b3530382b3337332b343134]), ([0x666572], [0x343134]), ([0x6c6176], [0x3541437830]), ([0x676573], [0x37]), ([0x65707974], [0x62616c])],
  [([0x6469], [0x32343132]), ([0x656d616e], [0x2231355f6c6961745f33335f656761705f6b6369745f706f5f22]), ([0x657a697372646461], [0x6574756c6f736261]), ([0x65706f6373], [0x31]), ([0x666564], [0x3432312b343231312b3337332b343134]), ([0x666572], [0x343134]), ([0x6c6176], [0x3241437830]), ([0x676573], [0x37]), ([0x65707974], [0x62616c])],
  [([0x6469], [0x33343132]), ([0x656d616e], [0x2235355f6c6961745f33335f656761705f6b6369745f706f5f22]), ([0x657a697372646461], [0x6574756c6f736261]), ([0x65706f6373], [0x31]), ([0x666564], [0x3432312b3332332b3337332b343134]), ([0x666572], [0x343134]), ([0x6c6176], [0x4639437830]), ([0x676573], [0x37]), ([0x65707974], [0x62616c])]]

/-- player/iivision.dbg, sym lines 2144-2175 -/
def symLines67 : List (List (List Nat × List Nat)) := [
  [([0x6469], [0x34343132]), ([0x656d616e], [0x2239355f6c6961745f33335f656761705f6b6369745f706f5f22]), ([0x657a697372646461], [0x6574756c6f736261]), ([0x65706f6373], [0x31]), ([0x666564], [0x3432312b323431312b3337332b343134]), ([0x6c6176], [0x4339437830]), ([0x676573], [0x37]), ([0x65707974], [0x62616c])],
  [([0x6469], [0x35343132]), ([0x656d616e], [0x2233335f656761705f345f6b6369745f706f22]), ([0x657a697372646461], [0x6574756c6f736261]), ([0x65706f6373], [0x31]), ([0x666564], [0x323630312b3337332b343134]), ([0x6c6176], [0x3239437830]), ([0x676573], [0x37]), ([0x65707974], [0x62616c])],
  [([0x6469], [0x36343132]), ([0x656d616e], [0x22444022]), ([0x657a697372646461], [0x6574756c6f736261]), ([0x746e65726170], [0x37343132]), ([0x666564], [0x3435322b3833312b37313131]), ([0x666572], [0x373131312b37313131]), ([0x6c6176], [0x4638437830]), ([0x676573], [0x37]), ([0x65707974], [0x62616c])],
  [([0x6469], [0x37343132]), ([0x656d616e], [0x2232335f656761705f36365f6b6369745f706f22]), ([0x657a697372646461], [0x6574756c6f736261]), ([0x65706f6373], [0x31]), ([0x666564], [0x3739362b3833312b37313131]), ([0x6c6176], [0x4535437830]), ([0x676573], [0x37]), ([0x65707974], [0x62616c])],
  [([0x6469], [0x38343132]), ([0x656d616e], [0x22444022]), ([0x657a697372646461], [0x6574756c6f736261]), ([0x746e65726170], [0x39343132]), ([0x666564], [0x3030372b313030312b37313131]), ([0x666572], [0x373131312b37313131]), ([0x6c6176], [0x4235437830]), ([0x676573], [0x37]), ([0x65707974], [0x62616c])],
  [([0x6469], [0x39343132]), ([0x656d616e], [0x2232335f656761705f34365f6b6369745f706f22]), ([0x657a697372646461], [0x6574756c6f736261]), ([0x65706f6373], [0x31]), ([0x666564], [0x3937392b313030312b37313131]), ([0x6c6176], [0x4132437830]), ([0x676573], [0x37]), ([0x65707974], [0x62616c])],
  [([0x6469], [0x30353132]), ([0x656d616e], [0x22444022]), ([0x657a697372646461], [0x6574756c6f736261]), ([0x746e65726170], [0x31353132]), ([0x666564], [0x3033382b3436362b37313131]), ([0x666572], [0x373131312b37313131]), ([0x6c6176], [0x3732437830]), ([0x676573], [0x37]), ([0x65707974], [0x62616c])],
  [([0x6469], [0x31353132]), ([0x656d616e], [0x2232335f656761705f32365f6b6369745f706f22]), ([0x657a697372646461], [0x6574756c6f736261]), ([0x65706f6373], [0x31]), ([0x666564], [0x3236322b3436362b37313131]), ([0x6c6176], [0x3646427830]), ([0x676573], [0x37]), ([0x65707974], [0x62616c])],
  [([0x6469], [0x32353132]), ([0x656d616e], [0x22444022]), ([0x657a697372646461], [0x6574756c6f736261]), ([0x746e65726170], [0x33353132]), ([0x666564], [0x3332382b3937372b37313131]), ([0x666572], [0x373131312b37313131]), ([0x6c6176], [0x3346427830]), ([0x676573], [0x37]), ([0x65707974], [0x62616c])],
  [([0x6469], [0x33353132]), ([0x656d616e], [0x2232335f656761705f30365f6b6369745f706f22]), ([0x657a697372646461], [0x6574756c6f736261]), ([0x65706f6373], [0x31]), ([0x666564], [0x3532372b3937372b37313131]), ([0x6c6176], [0x3243427830]), ([0x676573], [0x37]), ([0x65707974], [0x62616c])],
  [([0x6469], [0x34353132]), ([0x656d616e], [0x22444022]), ([0x657a697372646461], [0x6574756c6f736261]), ([0x746e65726170], [0x35353132]), ([0x666564], [0x383831312b3031352b37313131]), ([0x666572], [0x373131312b37313131]), ([0x6c6176], [0x4642427830]), ([0x676573], [0x37]), ([0x65707974], [0x62616c])],
  [([0x6469], [0x35353132]), ([0x656d616e], [0x2232335f656761705f38355f6b6369745f706f22]), ([0x657a697372646461], [0x6574756c6f736261]), ([0x65706f6373], [0x31]), ([0x666564], [0x3638392b3031352b37313131]), ([0x6c6176], [0x4538427830]), ([0x676573], [0x37]), ([0x65707974], [0x62616c])],
  [([0x6469], [0x36353132]), ([0x656d616e], [0x22444022]), ([0x657a697372646461], [0x6574756c6f736261]), ([0x746e65726170], [0x37353132]), ([0x666564], [0x3130382b3430372b37313131]), ([0x666572], [0x373131312b37313131]), ([0x6c6176], [0x4238427830]), ([0x676573], [0x37]), ([0x65707974], [0x62616c])],
  [([0x6469], [0x37353132]), ([0x656d616e], [0x2232335f656761705f36355f6b6369745f706f22]), ([0x657a697372646461], [0x6574756c6f736261]), ([0x65706f6373], [0x31]), ([0x666564], [0x363832312b3430372b37313131]), ([0x6c6176], [0x4135427830]), ([0x676573], [0x37]), ([0x65707974], [0x62616c])],
  [([0x6469], [0x38353132]), ([0x656d616e], [0x22444022]), ([0x657a697372646461], [0x6574756c6f736261]), ([0x746e65726170], [0x39353132]), ([0x666564], [0x323230312b3132362b37313131]), ([0x666572], [0x373131312b37313131]), ([0x6c6176], [0x3735427830]), ([0x676573], [0x37]), ([0x65707974], [0x62616c])],
  [([0x6469], [0x39353132]), ([0x656d616e], [0x2232335f656761705f34355f6b6369745f706f22]), ([0x657a697372646461], [0x6574756c6f736261]), ([0x65706f6373], [0x31]), ([0x666564], [0x313032312b3132362b37313131]), ([0x6c6176], [0x3632427830]), ([0x676573], [0x37]), ([0x65707974], [0x62616c])],
  [([0x6469], [0x30363132]), ([0x656d616e], [0x2232335f656761705f32355f6b6369745f706f22]), ([0x657a697372646461], [0x6574756c6f736261]), ([0x65706f6373], [0x31]), ([0x666564], [0x3335312b3438382b37313131]), ([0x6c6176], [0x4246417830]), ([0x676573], [0x37]), ([0x65707974], [0x62616c])],
  [([0x6469], [0x31363132]), ([0x656d616e], [0x2232335f656761705f30355f6b6369745f706f22]), ([0x657a697372646461], [0x6574756c6f736261]), ([0x65706f6373], [0x31]), ([0x666564], [0x3236392b3431312b37313131]), ([0x6c6176], [0x3344417830]), ([0x676573], [0x37]), ([0x65707974], [0x62616c])],
  [([0x6469], [0x32363132]), ([0x656d616e], [0x2232335f656761705f38345f6b6369745f706f22]), ([0x657a697372646461], [0x6574756c6f736261]), ([0x65706f6373], [0x31]), ([0x666564], [0x3933342b363230312b37313131]), ([0x6c6176], [0x4141417830]), ([0x676573], [0x37]), ([0x65707974], [0x62616c])],
  [([0x6469], [0x33363132]), ([0x656d616e], [0x2232335f656761705f36345f6b6369745f706f22]), ([0x657a697372646461], [0x6574756c6f736261]), ([0x65706f6373], [0x31]), ([0x666564], [0x343430312b3734362b37313131]), ([0x6c6176], [0x3538417830]), ([0x676573], [0x37]), ([0x65707974], [0x62616c])],
  [([0x6469], [0x34363132]), ([0x656d616e], [0x2232335f656761705f34345f6b6369745f706f22]), ([0x657a697372646461], [0x6574756c6f736261]), ([0x65706f6373], [0x31]), ([0x666564], [0x3634352b3836322b37313131]), ([0x6c6176], [0x4635417830]), ([0x676573], [0x37]), ([0x65707974], [0x62616c])],
  [([0x6469], [0x35363132]), ([0x656d616e], [0x2232335f656761705f32345f6b6369745f706f22]), ([0x657a697372646461], [0x6574756c6f736261]), ([0x65706f6373], [0x31]), ([0x666564], [0x37362b32362b37313131]), ([0x6c6176], [0x4333417830]), ([0x676573], [0x37]), ([0x65707974], [0x62616c])],
  [([0x6469], [0x36363132]), ([0x656d616e], [0x2232335f656761705f30345f6b6369745f706f22]), ([0x657a697372646461], [0x6574756c6f736261]), ([0x65706f6373], [0x31]), ([0x666564], [0x323232312b343131312b37313131]), ([0x6c6176], [0x3931417830]), ([0x676573], [0x37]), ([0x65707974], [0x62616c])],
  [([0x6469], [0x37363132]), ([0x656d616e], [0x2232335f656761705f38335f6b6369745f706f22]), ([0x657a697372646461], [0x6574756c6f736261]), ([0x65706f6373], [0x31]), ([0x666564], [0x353633312b3930362b37313131]), ([0x6c6176], [0x3946397830]), ([0x676573], [0x37]), ([0x65707974], [0x62616c])],
  [([0x6469], [0x38363132]), ([0x656d616e], [0x22444022]), ([0x657a697372646461], [0x6574756c6f736261]), ([0x746e65726170], [0x39363132]), ([0x666564], [0x333932312b363332312b37313131]), ([0x666572], [0x373131312b37313131]), ([0x6c6176], [0x3646397830]), ([0x676573], [0x37]), ([0x65707974], [0x62616c])],
  [([0x6469], [0x39363132]), ([0x656d616e], [0x2232335f656761705f36335f6b6369745f706f22]), ([0x657a697372646461], [0x6574756c6f736261]), ([0x65706f6373], [0x31]), ([0x666564], [0x3036382b363332312b37313131]), ([0x6c6176], [0x3543397830]), ([0x676573], [0x37]), ([0x65707974], [0x62616c])],
  [([0x6469], [0x30373132]), ([0x656d616e], [0x2232335f656761705f34335f6b6369745f706f22]), ([0x657a697372646461], [0x6574756c6f736261]), ([0x65706f6373], [0x31]), ([0x666564], [0x343030312b363330312b37313131]), ([0x6c6176], [0x4639397830]), ([0x676573], [0x37]), ([0x65707974], [0x62616c])],
  [([0x6469], [0x31373132]), ([0x656d616e], [0x2232335f656761705f32335f6b6369745f706f22]), ([0x657a697372646461], [0x6574756c6f736261]), ([0x65706f6373], [0x31]), ([0x666564], [0x3234362b393230312b37313131]), ([0x6c6176], [0x3338397830]), ([0x676573], [0x37]), ([0x65707974], [0x62616c])],
  [([0x6469], [0x32373132]), ([0x656d616e], [0x2232335f656761705f30335f6b6369745f706f22]), ([0x657a697372646461], [0x6574756c6f736261]), ([0x65706f6373], [0x31]), ([0x666564], [0x373330312b373130312b37313131]), ([0x6c6176], [0x3636397830]), ([0x676573], [0x37]), ([0x65707974], [0x62616c])],
  [([0x6469], [0x33373132]), ([0x656d616e], [0x2232335f656761705f38325f6b6369745f706f22]), ([0x657a697372646461], [0x6574756c6f736261]), ([0x65706f6373], [0x31]), ([0x666564], [0x3231322b3637312b37313131]), ([0x6c6176], [0x4434397830]), ([0x676573], [0x37]), ([0x65707974], [0x62616c])],
  [([0x6469], [0x34373132]), ([0x656d616e], [0x2232335f656761705f36325f6b6369745f706f22]), ([0x657a697372646461], [0x6574756c6f736261]), ([0x65706f6373], [0x31]), ([0x666564], [0x3038352b3831322b37313131]), ([0x6c6176], [0x3333397830]), ([0x676573], [0x37]), ([0x65707974], [0x62616c])],
  [([0x6469], [0x35373132]), ([0x656d616e], [0x2232335f656761705f34325f6b6369745f706f22]), ([0x657a697372646461], [0x6574756c6f736261]), ([0x65706f6373], [0x31]), ([0x666564], [0x3837362b333232312b37313131]), ([0x6c6176], [0x4331397830]), ([0x676573], [0x37]), ([0x65707974], [0x62616c])]]

/-- player/iivision.dbg, sym lines 2176-2207 -/
def symLines68 : List (List (List Nat × List Nat)) := [
  [([0x6469], [0x36373132]), ([0x656d616e], [0x2232335f656761705f32325f6b6369745f706f22]), ([0x657a697372646461], [0x6574756c6f736261]), ([0x65706f6373], [0x31]), ([0x666564], [0x323931312b373033312b37313131]), ([0x6c6176], [0x3530397830]), ([0x676573], [0x37]), ([0x65707974], [0x62616c])],
  [([0x6469], [0x37373132]), ([0x656d616e], [0x2232335f656761705f30325f6b6369745f706f22]), ([0x657a697372646461], [0x6574756c6f736261]), ([0x65706f6373], [0x31]), ([0x666564], [0x32332b373732312b37313131]), ([0x6c6176], [0x3146387830]), ([0x676573], [0x37]), ([0x65707974], [0x62616c])],
  [([0x6469], [0x38373132]), ([0x656d616e], [0x22444022]), ([0x657a697372646461], [0x6574756c6f736261]), ([0x746e65726170], [0x39373132]), ([0x666564], [0x3430352b38392b37313131]), ([0x666572], [0x373131312b37313131]), ([0x6c6176], [0x4545387830]), ([0x676573], [0x37]), ([0x65707974], [0x62616c])],
  [([0x6469], [0x39373132]), ([0x656d616e], [0x2232335f656761705f38315f6b6369745f706f22]), ([0x657a697372646461], [0x6574756c6f736261]), ([0x65706f6373], [0x31]), ([0x666564], [0x323032312b38392b37313131]), ([0x6c6176], [0x4442387830]), ([0x676573], [0x37]), ([0x65707974], [0x62616c])],
  [([0x6469], [0x30383132]), ([0x656d616e], [0x2232335f656761705f36315f6b6369745f706f22]), ([0x657a697372646461], [0x6574756c6f736261]), ([0x65706f6373], [0x31]), ([0x666564], [0x3032382b3332392b37313131]), ([0x6c6176], [0x3641387830]), ([0x676573], [0x37]), ([0x65707974], [0x62616c])],
  [([0x6469], [0x31383132]), ([0x656d616e], [0x2232335f656761705f34315f6b6369745f706f22]), ([0x657a697372646461], [0x6574756c6f736261]), ([0x65706f6373], [0x31]), ([0x666564], [0x33312b3430332b37313131]), ([0x6c6176], [0x3639387830]), ([0x676573], [0x37]), ([0x65707974], [0x62616c])],
  [([0x6469], [0x32383132]), ([0x656d616e], [0x2232335f656761705f32315f6b6369745f706f22]), ([0x657a697372646461], [0x6574756c6f736261]), ([0x65706f6373], [0x31]), ([0x666564], [0x3736372b383431312b37313131]), ([0x6c6176], [0x3538387830]), ([0x676573], [0x37]), ([0x65707974], [0x62616c])],
  [([0x6469], [0x33383132]), ([0x656d616e], [0x2232335f656761705f30315f6b6369745f706f22]), ([0x657a697372646461], [0x6574756c6f736261]), ([0x65706f6373], [0x31]), ([0x666564], [0x3334392b3334372b37313131]), ([0x6c6176], [0x3837387830]), ([0x676573], [0x37]), ([0x65707974], [0x62616c])],
  [([0x6469], [0x34383132]), ([0x656d616e], [0x2232335f656761705f385f6b6369745f706f22]), ([0x657a697372646461], [0x6574756c6f736261]), ([0x65706f6373], [0x31]), ([0x666564], [0x3132382b3037332b37313131]), ([0x6c6176], [0x4136387830]), ([0x676573], [0x37]), ([0x65707974], [0x62616c])],
  [([0x6469], [0x35383132]), ([0x656d616e], [0x22385f6c6961745f32335f656761705f6b6369745f706f5f22]), ([0x657a697372646461], [0x6574756c6f736261]), ([0x65706f6373], [0x31]), ([0x666564], [0x3432312b3033362b3737352b37313131]), ([0x6c6176], [0x3436387830]), ([0x676573], [0x37]), ([0x65707974], [0x62616c])],
  [([0x6469], [0x36383132]), ([0x656d616e], [0x2232315f6c6961745f32335f656761705f6b6369745f706f5f22]), ([0x657a697372646461], [0x6574756c6f736261]), ([0x65706f6373], [0x31]), ([0x666564], [0x3432312b383430312b3737352b37313131]), ([0x666572], [0x37313131]), ([0x6c6176], [0x3136387830]), ([0x676573], [0x37]), ([0x65707974], [0x62616c])],
  [([0x6469], [0x37383132]), ([0x656d616e], [0x22706d6a5f32335f656761705f365f6b6369745f706f5f22]), ([0x657a697372646461], [0x6574756c6f736261]), ([0x65706f6373], [0x31]), ([0x666564], [0x3735372b3737352b37313131]), ([0x666572], [0x373131312b373131312b37313131]), ([0x6c6176], [0x3736387830]), ([0x676573], [0x37]), ([0x65707974], [0x62616c])],
  [([0x6469], [0x38383132]), ([0x656d616e], [0x2236315f6c6961745f32335f656761705f6b6369745f706f5f22]), ([0x657a697372646461], [0x6574756c6f736261]), ([0x65706f6373], [0x31]), ([0x666564], [0x3432312b3837312b3737352b37313131]), ([0x666572], [0x37313131]), ([0x6c6176], [0x4535387830]), ([0x676573], [0x37]), ([0x65707974], [0x62616c])],
  [([0x6469], [0x39383132]), ([0x656d616e], [0x2230325f6c6961745f32335f656761705f6b6369745f706f5f22]), ([0x657a697372646461], [0x6574756c6f736261]), ([0x65706f6373], [0x31]), ([0x666564], [0x3432312b3238362b3737352b37313131]), ([0x666572], [0x373131312b37313131]), ([0x6c6176], [0x4235387830]), ([0x676573], [0x37]), ([0x65707974], [0x62616c])],
  [([0x6469], [0x30393132]), ([0x656d616e], [0x2235325f6c6961745f32335f656761705f6b6369745f706f5f22]), ([0x657a697372646461], [0x6574756c6f736261]), ([0x65706f6373], [0x31]), ([0x666564], [0x3432312b353431312b3737352b37313131]), ([0x6c6176], [0x3835387830]), ([0x676573], [0x37]), ([0x65707974], [0x62616c])],
  [([0x6469], [0x31393132]), ([0x656d616e], [0x2239325f6c6961745f32335f656761705f6b6369745f706f5f22]), ([0x657a697372646461], [0x6574756c6f736261]), ([0x65706f6373], [0x31]), ([0x666564], [0x3432312b343632312b3737352b37313131]), ([0x6c6176], [0x3535387830]), ([0x676573], [0x37]), ([0x65707974], [0x62616c])],
  [([0x6469], [0x32393132]), ([0x656d616e], [0x2234335f6c6961745f32335f656761705f6b6369745f706f5f22]), ([0x657a697372646461], [0x6574756c6f736261]), ([0x65706f6373], [0x31]), ([0x666564], [0x3432312b3538342b3737352b37313131]), ([0x666572], [0x37313131]), ([0x6c6176], [0x3235387830]), ([0x676573], [0x37]), ([0x65707974], [0x62616c])],
  [([0x6469], [0x33393132]), ([0x656d616e], [0x2238335f6c6961745f32335f656761705f6b6369745f706f5f22]), ([0x657a697372646461], [0x6574756c6f736261]), ([0x65706f6373], [0x31]), ([0x666564], [0x3432312b3435352b3737352b37313131]), ([0x666572], [0x37313131]), ([0x6c6176], [0x4634387830]), ([0x676573], [0x37]), ([0x65707974], [0x62616c])],
  [([0x6469], [0x34393132]), ([0x656d616e], [0x2233345f6c6961745f32335f656761705f6b6369745f706f5f22]), ([0x657a697372646461], [0x6574756c6f736261]), ([0x65706f6373], [0x31]), ([0x666564], [0x3432312b383433312b3737352b37313131]), ([0x666572], [0x37313131]), ([0x6c6176], [0x4334387830]), ([0x676573], [0x37]), ([0x65707974], [0x62616c])],
  [([0x6469], [0x35393132]), ([0x656d616e], [0x2237345f6c6961745f32335f656761705f6b6369745f706f5f22]), ([0x657a697372646461], [0x6574756c6f736261]), ([0x65706f6373], [0x31]), ([0x666564], [0x3432312b3637372b3737352b37313131]), ([0x6c6176], [0x3934387830]), ([0x676573], [0x37]), ([0x65707974], [0x62616c])],
  [([0x6469], [0x36393132]), ([0x656d616e], [0x2232355f6c6961745f32335f656761705f6b6369745f706f5f22]), ([0x657a697372646461], [0x6574756c6f736261]), ([0x65706f6373], [0x31]), ([0x666564], [0x3432312b3137362b3737352b37313131]), ([0x666572], [0x37313131]), ([0x6c6176], [0x3634387830]), ([0x676573], [0x37]), ([0x65707974], [0x62616c])],
  [([0x6469], [0x37393132]), ([0x656d616e], [0x2236355f6c6961745f32335f656761705f6b6369745f706f5f22]), ([0x657a697372646461], [0x6574756c6f736261]), ([0x65706f6373], [0x31]), ([0x666564], [0x3432312b3839342b3737352b37313131]), ([0x666572], [0x37313131]), ([0x6c6176], [0x3334387830]), ([0x676573], [0x37]), ([0x65707974], [0x62616c])],
  [([0x6469], [0x38393132]), ([0x656d616e], [0x2230365f6c6961745f32335f656761705f6b6369745f706f5f22]), ([0x657a697372646461], [0x6574756c6f736261]), ([0x65706f6373], [0x31]), ([0x666564], [0x3432312b353632312b3737352b37313131]), ([0x6c6176], [0x3034387830]), ([0x676573], [0x37]), ([0x65707974], [0x62616c])],
  [([0x6469], [0x39393132]), ([0x656d616e], [0x2232335f656761705f365f6b6369745f706f22]), ([0x657a697372646461], [0x6574756c6f736261]), ([0x65706f6373], [0x31]), ([0x666564], [0x3432382b3737352b37313131]), ([0x6c6176], [0x3733387830]), ([0x676573], [0x37]), ([0x65707974], [0x62616c])],
  [([0x6469], [0x30303232]), ([0x656d616e], [0x22375f6c6961745f32335f656761705f6b6369745f706f5f22]), ([0x657a697372646461], [0x6574756c6f736261]), ([0x65706f6373], [0x31]), ([0x666564], [0x3432312b3330392b3337332b37313131]), ([0x6c6176], [0x3133387830]), ([0x676573], [0x37]), ([0x65707974], [0x62616c])],
  [([0x6469], [0x31303232]), ([0x656d616e], [0x2231315f6c6961745f32335f656761705f6b6369745f706f5f22]), ([0x657a697372646461], [0x6574756c6f736261]), ([0x65706f6373], [0x31]), ([0x666564], [0x3432312b333732312b3337332b37313131]), ([0x6c6176], [0x4532387830]), ([0x676573], [0x37]), ([0x65707974], [0x62616c])],
  [([0x6469], [0x32303232]), ([0x656d616e], [0x22706d6a5f32335f656761705f345f6b6369745f706f5f22]), ([0x657a697372646461], [0x6574756c6f736261]), ([0x65706f6373], [0x31]), ([0x666564], [0x3134322b3337332b37313131]), ([0x666572], [0x373131312b37313131]), ([0x6c6176], [0x3433387830]), ([0x676573], [0x37]), ([0x65707974], [0x62616c])],
  [([0x6469], [0x33303232]), ([0x656d616e], [0x2235315f6c6961745f32335f656761705f6b6369745f706f5f22]), ([0x657a697372646461], [0x6574756c6f736261]), ([0x65706f6373], [0x31]), ([0x666564], [0x3432312b3538352b3337332b37313131]), ([0x666572], [0x37313131]), ([0x6c6176], [0x4232387830]), ([0x676573], [0x37]), ([0x65707974], [0x62616c])],
  [([0x6469], [0x34303232]), ([0x656d616e], [0x2239315f6c6961745f32335f656761705f6b6369745f706f5f22]), ([0x657a697372646461], [0x6574756c6f736261]), ([0x65706f6373], [0x31]), ([0x666564], [0x3432312b3737322b3337332b37313131]), ([0x666572], [0x37313131]), ([0x6c6176], [0x3832387830]), ([0x676573], [0x37]), ([0x65707974], [0x62616c])],
  [([0x6469], [0x35303232]), ([0x656d616e], [0x2234325f6c6961745f32335f656761705f6b6369745f706f5f22]), ([0x657a697372646461], [0x6574756c6f736261]), ([0x65706f6373], [0x31]), ([0x666564], [0x3432312b3831352b3337332b37313131]), ([0x666572], [0x373131312b37313131]), ([0x6c6176], [0x3532387830]), ([0x676573], [0x37]), ([0x65707974], [0x62616c])],
  [([0x6469], [0x36303232]), ([0x656d616e], [0x2238325f6c6961745f32335f656761705f6b6369745f706f5f22]), ([0x657a697372646461], [0x6574756c6f736261]), ([0x65706f6373], [0x31]), ([0x666564], [0x3432312b3436312b3337332b37313131]), ([0x666572], [0x37313131]), ([0x6c6176], [0x3232387830]), ([0x676573], [0x37]), ([0x65707974], [0x62616c])],
  [([0x6469], [0x37303232]), ([0x656d616e], [0x2233335f6c6961745f32335f656761705f6b6369745f706f5f22]), ([0x657a697372646461], [0x6574756c6f736261]), ([0x65706f6373], [0x31]), ([0x666564], [0x3432312b3435312b3337332b37313131]), ([0x666572], [0x37313131]), ([0x6c6176], [0x4631387830]), ([0x676573], [0x37]), ([0x65707974], [0x62616c])]]

/-- player/iivision.dbg, sym lines 2208-2239 -/
def symLines69 : List (List (List Nat × List Nat)) := [
  [([0x6469], [0x38303232]), ([0x656d616e], [0x2237335f6c6961745f32335f656761705f6b6369745f706f5f22]), ([0x657a697372646461], [0x6574756c6f736261]), ([0x65706f6373], [0x31]), ([0x666564], [0x3432312b373532312b3337332b37313131]), ([0x666572], [0x37313131]), ([0x6c6176], [0x4331387830]), ([0x676573], [0x37]), ([0x65707974], [0x62616c])],
  [([0x6469], [0x39303232]), ([0x656d616e], [0x2232345f6c6961745f32335f656761705f6b6369745f706f5f22]), ([0x657a697372646461], [0x6574756c6f736261]), ([0x65706f6373], [0x31]), ([0x666564], [0x3432312b323033312b3337332b37313131]), ([0x666572], [0x373131312b37313131]), ([0x6c6176], [0x3931387830]), ([0x676573], [0x37]), ([0x65707974], [0x62616c])],
  [([0x6469], [0x30313232]), ([0x656d616e], [0x2236345f6c6961745f32335f656761705f6b6369745f706f5f22]), ([0x657a697372646461], [0x6574756c6f736261]), ([0x65706f6373], [0x31]), ([0x666564], [0x3432312b3530382b3337332b37313131]), ([0x666572], [0x37313131]), ([0x6c6176], [0x3631387830]), ([0x676573], [0x37]), ([0x65707974], [0x62616c])],
  [([0x6469], [0x31313232]), ([0x656d616e], [0x2231355f6c6961745f32335f656761705f6b6369745f706f5f22]), ([0x657a697372646461], [0x6574756c6f736261]), ([0x65706f6373], [0x31]), ([0x666564], [0x3432312b343231312b3337332b37313131]), ([0x666572], [0x37313131]), ([0x6c6176], [0x3331387830]), ([0x676573], [0x37]), ([0x65707974], [0x62616c])],
  [([0x6469], [0x32313232]), ([0x656d616e], [0x2235355f6c6961745f32335f656761705f6b6369745f706f5f22]), ([0x657a697372646461], [0x6574756c6f736261]), ([0x65706f6373], [0x31]), ([0x666564], [0x3432312b3332332b3337332b37313131]), ([0x666572], [0x37313131]), ([0x6c6176], [0x3031387830]), ([0x676573], [0x37]), ([0x65707974], [0x62616c])],
  [([0x6469], [0x33313232]), ([0x656d616e], [0x2239355f6c6961745f32335f656761705f6b6369745f706f5f22]), ([0x657a697372646461], [0x6574756c6f736261]), ([0x65706f6373], [0x31]), ([0x666564], [0x3432312b323431312b3337332b37313131]), ([0x6c6176], [0x4430387830]), ([0x676573], [0x37]), ([0x65707974], [0x62616c])],
  [([0x6469], [0x34313232]), ([0x656d616e], [0x2232335f656761705f345f6b6369745f706f22]), ([0x657a697372646461], [0x6574756c6f736261]), ([0x65706f6373], [0x31]), ([0x666564], [0x323630312b3337332b37313131]), ([0x6c6176], [0x3330387830]), ([0x676573], [0x37]), ([0x65707974], [0x62616c])],
  [([0x6469], [0x35313232]), ([0x656d616e], [0x22444022]), ([0x657a697372646461], [0x6574756c6f736261]), ([0x746e65726170], [0x36313232]), ([0x666564], [0x313138]), ([0x666572], [0x3331392b3336]), ([0x6c6176], [0x433730347830]), ([0x676573], [0x30]), ([0x65707974], [0x62616c])],
  [([0x6469], [0x36313232]), ([0x656d616e], [0x22706f6e5f706f22]), ([0x657a697372646461], [0x6574756c6f736261]), ([0x65706f6373], [0x31]), ([0x666564], [0x38333031]), ([0x666572], [0x31312b373131312b373131312b373131312b373131312b373131312b34393031, 0x2b3431342b373131312b373131312b373131312b373131312b373131312b3731, 0x2b3431342b3431342b3431342b3431342b3431342b3431342b3431342b343134, 0x2b3137372b3137372b3137372b3137372b3137372b3137372b3431342b343134, 0x2b3239352b3239352b3239352b3137372b3137372b3137372b3137372b313737, 0x2b3239352b3239352b3239352b3239352b3239352b3239352b3239352b323935, 0x2b3135372b3135372b3135372b3135372b3135372b3135372b3135372b313537, 0x3837382b3837382b343531312b3339382b3633332b3135372b3135372b313537, 0x3837382b3837382b3837382b3837382b3837382b3837382b3837382b3837382b, 0x32312b313632312b313632312b313632312b313632312b313632312b3837382b, 0x323830312b313632312b313632312b313632312b313632312b313632312b3136, 0x312b323830312b323830312b323830312b323830312b323830312b323830312b, 0x302b302b302b302b302b302b302b323830312b323830312b323830312b323830, 0x38322b38322b38322b38322b38322b38322b38322b38322b302b302b302b302b, 0x37382b3537382b3537382b3537382b3537382b3537382b38322b38322b38322b, 0x2b363932312b363932312b3537382b3537382b3537382b3537382b3537382b35, 0x32312b363932312b363932312b363932312b363932312b363932312b36393231, 0x3730362b3730362b3730362b3730362b3730362b363932312b363932312b3639, 0x3836352b3836352b3730362b3730362b3730362b3730362b3730362b3730362b, 0x3836352b3836352b3836352b3836352b3836352b3836352b3836352b3836352b, 0x33312b373333312b373333312b373333312b373333312b373333312b3836352b, 0x2b3836342b373333312b373333312b373333312b373333312b373333312b3733, 0x2b3836342b3836342b3836342b3836342b3836342b3836342b3836342b383634, 0x2b3834392b3834392b3834392b3834392b3834392b3834392b3836342b383634, 0x2b3931322b3931322b3931322b3834392b3834392b3834392b3834392b383439, 0x2b3931322b3931322b3931322b3931322b3931322b3931322b3931322b393132, 0x33312b383733312b383733312b383733312b383733312b383733312b38373331, 0x312b3030312b3030312b383733312b383733312b383733312b383733312b3837, 0x312b3030312b3030312b3030312b3030312b3030312b3030312b3030312b3030, 0x372b3737372b3737372b3737372b3737372b3737372b3737372b3737372b3030, 0x30312b393830312b393830312b393830312b3737372b3737372b3737372b3737, 0x393830312b393830312b393830312b393830312b393830312b393830312b3938, 0x312b323031312b323031312b323031312b323031312b323031312b393830312b, 0x3633312b323031312b323031312b323031312b323031312b323031312b323031, 0x2b393633312b393633312b393633312b393633312b393633312b393633312b39, 0x2b3735392b3735392b3735392b393633312b393633312b393633312b39363331, 0x2b3735392b3735392b3735392b3735392b3735392b3735392b3735392b373539, 0x33312b313833312b313833312b313833312b313833312b313833312b31383331, 0x353830312b353830312b313833312b313833312b313833312b313833312b3138, 0x312b353830312b353830312b353830312b353830312b353830312b353830312b, 0x33362b3933362b3933362b3933362b3933362b353830312b353830312b353830, 0x30312b3630312b3933362b3933362b3933362b3933362b3933362b3933362b39, 0x30312b3630312b3630312b3630312b3630312b3630312b3630312b3630312b36, 0x312b313332312b313332312b313332312b313332312b313332312b3630312b36, 0x3831312b313332312b313332312b313332312b313332312b313332312b313332, 0x2b313831312b313831312b313831312b313831312b313831312b313831312b31, 0x2b3730332b3538372b3931312b313831312b313831312b313831312b31383131, 0x3835322b3438372b323833312b3230352b31313231]), ([0x6c6176], [0x303730347830]), ([0x676573], [0x30]), ([0x65707974], [0x62616c])],
  [([0x6469], [0x37313232]), ([0x656d616e], [0x22314022]), ([0x657a697372646461], [0x6574756c6f736261]), ([0x657a6973], [0x33]), ([0x746e65726170], [0x30323232]), ([0x666564], [0x373834]), ([0x666572], [0x363034]), ([0x6c6176], [0x393530347830]), ([0x676573], [0x30]), ([0x65707974], [0x62616c])],
  [([0x6469], [0x38313232]), ([0x656d616e], [0x22324022]), ([0x657a697372646461], [0x6574756c6f736261]), ([0x746e65726170], [0x30323232]), ([0x666564], [0x31343331]), ([0x666572], [0x333735]), ([0x6c6176], [0x313630347830]), ([0x676573], [0x30]), ([0x65707974], [0x62616c])],
  [([0x6469], [0x39313232]), ([0x656d616e], [0x22304022]), ([0x657a697372646461], [0x6574756c6f736261]), ([0x657a6973], [0x33]), ([0x746e65726170], [0x30323232]), ([0x666564], [0x33333131]), ([0x6c6176], [0x313530347830]), ([0x676573], [0x30]), ([0x65707974], [0x62616c])],
  [([0x6469], [0x30323232]), ([0x656d616e], [0x227663657222]), ([0x657a697372646461], [0x6574756c6f736261]), ([0x65706f6373], [0x31]), ([0x666564], [0x34333231]), ([0x666572], [0x32363231]), ([0x6c6176], [0x423430347830]), ([0x676573], [0x30]), ([0x65707974], [0x62616c])],
  [([0x6469], [0x31323232]), ([0x656d616e], [0x22766365726b6365686322]), ([0x657a697372646461], [0x6574756c6f736261]), ([0x65706f6373], [0x31]), ([0x666564], [0x373034]), ([0x666572], [0x3938382b3232]), ([0x6c6176], [0x373330347830]), ([0x676573], [0x30]), ([0x65707974], [0x62616c])],
  [([0x6469], [0x32323232]), ([0x656d616e], [0x22314022]), ([0x657a697372646461], [0x6574756c6f736261]), ([0x746e65726170], [0x33323232]), ([0x666564], [0x363833]), ([0x666572], [0x303131]), ([0x6c6176], [0x423230347830]), ([0x676573], [0x30]), ([0x65707974], [0x62616c])],
  [([0x6469], [0x33323232]), ([0x656d616e], [0x227267685f7265646165685f706f5f22]), ([0x657a697372646461], [0x6574756c6f736261]), ([0x65706f6373], [0x31]), ([0x666564], [0x393836]), ([0x666572], [0x383833]), ([0x6c6176], [0x303030347830]), ([0x676573], [0x30]), ([0x65707974], [0x62616c])],
  [([0x6469], [0x34323232]), ([0x656d616e], [0x227265646165685f706f22]), ([0x657a697372646461], [0x6574756c6f736261]), ([0x65706f6373], [0x31]), ([0x666564], [0x30363031]), ([0x666572], [0x393039]), ([0x6c6176], [0x423531327830]), ([0x676573], [0x36]), ([0x65707974], [0x62616c])],
  [([0x6469], [0x35323232]), ([0x656d616e], [0x22454e4f444022]), ([0x657a697372646461], [0x6574756c6f736261]), ([0x657a6973], [0x31]), ([0x746e65726170], [0x38323232]), ([0x666564], [0x31333331]), ([0x666572], [0x38353231]), ([0x6c6176], [0x423131327830]), ([0x676573], [0x36]), ([0x65707974], [0x62616c])],
  [([0x6469], [0x36323232]), ([0x656d616e], [0x2247534d52524522]), ([0x657a697372646461], [0x6574756c6f736261]), ([0x657a6973], [0x3434]), ([0x65706f6373], [0x31]), ([0x666564], [0x3734]), ([0x666572], [0x363439]), ([0x6c6176], [0x433131327830]), ([0x676573], [0x36]), ([0x65707974], [0x62616c])],
  [([0x6469], [0x37323232]), ([0x656d616e], [0x224c4022]), ([0x657a697372646461], [0x6574756c6f736261]), ([0x746e65726170], [0x38323232]), ([0x666564], [0x3831]), ([0x666572], [0x353632]), ([0x6c6176], [0x303131327830]), ([0x676573], [0x36]), ([0x65707974], [0x62616c])],
  [([0x6469], [0x38323232]), ([0x656d616e], [0x22454e4f4452524522]), ([0x657a697372646461], [0x6574756c6f736261]), ([0x65706f6373], [0x31]), ([0x666564], [0x313137]), ([0x666572], [0x393634]), ([0x6c6176], [0x453031327830]), ([0x676573], [0x36]), ([0x65707974], [0x62616c])],
  [([0x6469], [0x39323232]), ([0x656d616e], [0x227265646165685f646165725f7469617722]), ([0x657a697372646461], [0x6574756c6f736261]), ([0x65706f6373], [0x31]), ([0x666564], [0x393135]), ([0x666572], [0x3531352b39343231]), ([0x6c6176], [0x413431327830]), ([0x676573], [0x36]), ([0x65707974], [0x62616c])],
  [([0x6469], [0x30333232]), ([0x656d616e], [0x2244454c49414622]), ([0x657a697372646461], [0x6574756c6f736261]), ([0x65706f6373], [0x31]), ([0x666564], [0x333333]), ([0x666572], [0x31313131]), ([0x6c6176], [0x323031327830]), ([0x676573], [0x36]), ([0x65707974], [0x62616c])],
  [([0x6469], [0x31333232]), ([0x656d616e], [0x22545345544b4345484322]), ([0x657a697372646461], [0x6574756c6f736261]), ([0x65706f6373], [0x31]), ([0x666564], [0x313333]), ([0x666572], [0x32333231]), ([0x6c6176], [0x324630327830]), ([0x676573], [0x36]), ([0x65707974], [0x62616c])],
  [([0x6469], [0x32333232]), ([0x656d616e], [0x22454e4f444c4022]), ([0x657a697372646461], [0x6574756c6f736261]), ([0x657a6973], [0x31]), ([0x746e65726170], [0x39333232]), ([0x666564], [0x38313131]), ([0x666572], [0x343133]), ([0x6c6176], [0x324330327830]), ([0x676573], [0x36]), ([0x65707974], [0x62616c])],
  [([0x6469], [0x33333232]), ([0x656d616e], [0x225252454b434f534022]), ([0x657a697372646461], [0x6574756c6f736261]), ([0x657a6973], [0x3533]), ([0x746e65726170], [0x39333232]), ([0x666564], [0x353631]), ([0x666572], [0x38373031]), ([0x6c6176], [0x334330327830]), ([0x676573], [0x36]), ([0x65707974], [0x62616c])],
  [([0x6469], [0x34333232]), ([0x656d616e], [0x22344c4022]), ([0x657a697372646461], [0x6574756c6f736261]), ([0x746e65726170], [0x39333232]), ([0x666564], [0x343638]), ([0x666572], [0x373838]), ([0x6c6176], [0x374230327830]), ([0x676573], [0x36]), ([0x65707974], [0x62616c])],
  [([0x6469], [0x35333232]), ([0x656d616e], [0x2244454e45504f22]), ([0x657a697372646461], [0x6574756c6f736261]), ([0x65706f6373], [0x31]), ([0x666564], [0x343536]), ([0x666572], [0x393437]), ([0x6c6176], [0x384530327830]), ([0x676573], [0x36]), ([0x65707974], [0x62616c])],
  [([0x6469], [0x36333232]), ([0x656d616e], [0x22334c4022]), ([0x657a697372646461], [0x6574756c6f736261]), ([0x746e65726170], [0x39333232]), ([0x666564], [0x353033]), ([0x666572], [0x333734]), ([0x6c6176], [0x383830327830]), ([0x676573], [0x36]), ([0x65707974], [0x62616c])],
  [([0x6469], [0x37333232]), ([0x656d616e], [0x22324c4022]), ([0x657a697372646461], [0x6574756c6f736261]), ([0x746e65726170], [0x39333232]), ([0x666564], [0x34333131]), ([0x666572], [0x373131]), ([0x6c6176], [0x423430327830]), ([0x676573], [0x36]), ([0x65707974], [0x62616c])],
  [([0x6469], [0x38333232]), ([0x656d616e], [0x22314c4022]), ([0x657a697372646461], [0x6574756c6f736261]), ([0x746e65726170], [0x39333232]), ([0x666564], [0x323433]), ([0x666572], [0x393432]), ([0x6c6176], [0x393330327830]), ([0x676573], [0x36]), ([0x65707974], [0x62616c])],
  [([0x6469], [0x39333232]), ([0x656d616e], [0x2230303135775f746573657222]), ([0x657a697372646461], [0x6574756c6f736261]), ([0x65706f6373], [0x31]), ([0x666564], [0x383438]), ([0x666572], [0x39353231]), ([0x6c6176], [0x333230327830]), ([0x676573], [0x36]), ([0x65707974], [0x62616c])]]

/-- player/iivision.dbg, sym lines 2240-2271 -/
def symLines70 : List (List (List Nat × List Nat)) := [
  [([0x6469], [0x30343232]), ([0x656d616e], [0x227469786522]), ([0x657a697372646461], [0x6574756c6f736261]), ([0x65706f6373], [0x31]), ([0x666564], [0x333334]), ([0x666572], [0x343532312b36382b3938]), ([0x6c6176], [0x434141427830]), ([0x676573], [0x30]), ([0x65707974], [0x62616c])],
  [([0x6469], [0x31343232]), ([0x656d616e], [0x227061727473746f6f6222]), ([0x657a697372646461], [0x6574756c6f736261]), ([0x65706f6373], [0x31]), ([0x666564], [0x39313331]), ([0x666572], [0x35323131]), ([0x6c6176], [0x303130327830]), ([0x676573], [0x36]), ([0x65707974], [0x62616c])],
  [([0x6469], [0x32343232]), ([0x656d616e], [0x2244454853494c4241545345545322]), ([0x657a697372646461], [0x656761706f72657a]), ([0x65706f6373], [0x31]), ([0x666564], [0x39313131]), ([0x666572], [0x363336]), ([0x6c6176], [0x37317830]), ([0x65707974], [0x757165])],
  [([0x6469], [0x33343232]), ([0x656d616e], [0x2254494e49545322]), ([0x657a697372646461], [0x656761706f72657a]), ([0x65706f6373], [0x31]), ([0x666564], [0x39353131]), ([0x666572], [0x38]), ([0x6c6176], [0x33317830]), ([0x65707974], [0x757165])],
  [([0x6469], [0x34343232]), ([0x656d616e], [0x2256434552435322]), ([0x657a697372646461], [0x656761706f72657a]), ([0x65706f6373], [0x31]), ([0x666564], [0x313939]), ([0x666572], [0x383531]), ([0x6c6176], [0x30347830]), ([0x65707974], [0x757165])],
  [([0x6469], [0x35343232]), ([0x656d616e], [0x22444e4553435322]), ([0x657a697372646461], [0x656761706f72657a]), ([0x65706f6373], [0x31]), ([0x666564], [0x383237]), ([0x6c6176], [0x30327830]), ([0x65707974], [0x757165])],
  [([0x6469], [0x36343232]), ([0x656d616e], [0x224e4f43534944435322]), ([0x657a697372646461], [0x656761706f72657a]), ([0x65706f6373], [0x31]), ([0x666564], [0x353034]), ([0x666572], [0x35353331]), ([0x6c6176], [0x387830]), ([0x65707974], [0x757165])],
  [([0x6469], [0x37343232]), ([0x656d616e], [0x225443454e4e4f43435322]), ([0x657a697372646461], [0x656761706f72657a]), ([0x65706f6373], [0x31]), ([0x666564], [0x313532]), ([0x666572], [0x37373031]), ([0x6c6176], [0x347830]), ([0x65707974], [0x757165])],
  [([0x6469], [0x38343232]), ([0x656d616e], [0x224e45504f435322]), ([0x657a697372646461], [0x656761706f72657a]), ([0x65706f6373], [0x31]), ([0x666564], [0x373336]), ([0x666572], [0x393637]), ([0x6c6176], [0x317830]), ([0x65707974], [0x757165])],
  [([0x6469], [0x39343232]), ([0x656d616e], [0x224b53414d585422]), ([0x657a697372646461], [0x6574756c6f736261]), ([0x65706f6373], [0x31]), ([0x666564], [0x303035]), ([0x6c6176], [0x464646317830]), ([0x65707974], [0x757165])],
  [([0x6469], [0x30353232]), ([0x656d616e], [0x2245534142585422]), ([0x657a697372646461], [0x6574756c6f736261]), ([0x65706f6373], [0x31]), ([0x666564], [0x3335]), ([0x6c6176], [0x303030347830]), ([0x65707974], [0x757165])],
  [([0x6469], [0x31353232]), ([0x656d616e], [0x224b53414d585222]), ([0x657a697372646461], [0x6574756c6f736261]), ([0x65706f6373], [0x31]), ([0x666564], [0x363836]), ([0x666572], [0x303035]), ([0x6c6176], [0x464646317830]), ([0x65707974], [0x757165])],
  [([0x6469], [0x32353232]), ([0x656d616e], [0x2245534142585222]), ([0x657a697372646461], [0x6574756c6f736261]), ([0x65706f6373], [0x31]), ([0x666564], [0x3932]), ([0x666572], [0x3031362b3639332b373739]), ([0x6c6176], [0x303030367830]), ([0x65707974], [0x757165])],
  [([0x6469], [0x33353232]), ([0x656d616e], [0x2244525852305322]), ([0x657a697372646461], [0x6574756c6f736261]), ([0x65706f6373], [0x31]), ([0x666564], [0x353036]), ([0x666572], [0x3832332b343432]), ([0x6c6176], [0x3832347830]), ([0x65707974], [0x757165])],
  [([0x6469], [0x34353232]), ([0x656d616e], [0x225253525852305322]), ([0x657a697372646461], [0x6574756c6f736261]), ([0x65706f6373], [0x31]), ([0x666564], [0x353537]), ([0x666572], [0x3833352b3937382b373134]), ([0x6c6176], [0x3632347830]), ([0x65707974], [0x757165])],
  [([0x6469], [0x35353232]), ([0x656d616e], [0x2252575854305322]), ([0x657a697372646461], [0x6574756c6f736261]), ([0x65706f6373], [0x31]), ([0x666564], [0x38303131]), ([0x6c6176], [0x3432347830]), ([0x65707974], [0x757165])],
  [([0x6469], [0x36353232]), ([0x656d616e], [0x2252525854305322]), ([0x657a697372646461], [0x6574756c6f736261]), ([0x65706f6373], [0x31]), ([0x666564], [0x353934]), ([0x6c6176], [0x3232347830]), ([0x65707974], [0x757165])],
  [([0x6469], [0x37353232]), ([0x656d616e], [0x2254524f50524f46305322]), ([0x657a697372646461], [0x6574756c6f736261]), ([0x65706f6373], [0x31]), ([0x666564], [0x303839]), ([0x6c6176], [0x3031347830]), ([0x65707974], [0x757165])],
  [([0x6469], [0x38353232]), ([0x656d616e], [0x2252444441524f46305322]), ([0x657a697372646461], [0x6574756c6f736261]), ([0x65706f6373], [0x31]), ([0x666564], [0x33353231]), ([0x666572], [0x353234]), ([0x6c6176], [0x4330347830]), ([0x65707974], [0x757165])],
  [([0x6469], [0x39353232]), ([0x656d616e], [0x2254524f504c41434f4c305322]), ([0x657a697372646461], [0x6574756c6f736261]), ([0x65706f6373], [0x31]), ([0x666564], [0x363938]), ([0x666572], [0x30303131]), ([0x6c6176], [0x3430347830]), ([0x65707974], [0x757165])],
  [([0x6469], [0x30363232]), ([0x656d616e], [0x225253305322]), ([0x657a697372646461], [0x6574756c6f736261]), ([0x65706f6373], [0x31]), ([0x666564], [0x333736]), ([0x666572], [0x3733332b343738]), ([0x6c6176], [0x3330347830]), ([0x65707974], [0x757165])],
  [([0x6469], [0x31363232]), ([0x656d616e], [0x225243305322]), ([0x657a697372646461], [0x6574756c6f736261]), ([0x65706f6373], [0x31]), ([0x666564], [0x353931]), ([0x666572], [0x3231312b3531312b3537342b3735362b38313231]), ([0x6c6176], [0x3130347830]), ([0x65707974], [0x757165])],
  [([0x6469], [0x32363232]), ([0x656d616e], [0x22524d305322]), ([0x657a697372646461], [0x6574756c6f736261]), ([0x65706f6373], [0x31]), ([0x666564], [0x3834]), ([0x666572], [0x3131362b34303131]), ([0x6c6176], [0x3030347830]), ([0x65707974], [0x757165])],
  [([0x6469], [0x33363232]), ([0x656d616e], [0x2252534d5222]), ([0x657a697372646461], [0x656761706f72657a]), ([0x65706f6373], [0x31]), ([0x666564], [0x35373331]), ([0x666572], [0x393839]), ([0x6c6176], [0x41317830]), ([0x65707974], [0x757165])],
  [([0x6469], [0x34363232]), ([0x656d616e], [0x22504943525322]), ([0x657a697372646461], [0x656761706f72657a]), ([0x65706f6373], [0x31]), ([0x666564], [0x36373331]), ([0x666572], [0x33373031]), ([0x6c6176], [0x467830]), ([0x65707974], [0x757165])],
  [([0x6469], [0x35363232]), ([0x656d616e], [0x225244444143414d22]), ([0x657a697372646461], [0x656761706f72657a]), ([0x65706f6373], [0x31]), ([0x666564], [0x363133]), ([0x666572], [0x3739322b38323331]), ([0x6c6176], [0x397830]), ([0x65707974], [0x757165])],
  [([0x6469], [0x36363232]), ([0x656d616e], [0x22524f544345565f544553455222]), ([0x657a697372646461], [0x6574756c6f736261]), ([0x65706f6373], [0x31]), ([0x666564], [0x313635]), ([0x666572], [0x3231352b34362b3433382b343834]), ([0x6c6176], [0x3246337830]), ([0x65707974], [0x757165])],
  [([0x6469], [0x37363232]), ([0x656d616e], [0x22534f444f525022]), ([0x657a697372646461], [0x6574756c6f736261]), ([0x65706f6373], [0x31]), ([0x666564], [0x35373231]), ([0x666572], [0x32323331]), ([0x6c6176], [0x303046427830]), ([0x65707974], [0x757165])],
  [([0x6469], [0x38363232]), ([0x656d616e], [0x225841544e525022]), ([0x657a697372646461], [0x6574756c6f736261]), ([0x65706f6373], [0x31]), ([0x666564], [0x34333331]), ([0x6c6176], [0x313439467830]), ([0x65707974], [0x757165])],
  [([0x6469], [0x39363232]), ([0x656d616e], [0x2245545942525022]), ([0x657a697372646461], [0x6574756c6f736261]), ([0x65706f6373], [0x31]), ([0x666564], [0x303431]), ([0x6c6176], [0x414444467830]), ([0x65707974], [0x757165])],
  [([0x6469], [0x30373232]), ([0x656d616e], [0x2254554f4322]), ([0x657a697372646461], [0x6574756c6f736261]), ([0x65706f6373], [0x31]), ([0x666564], [0x313933]), ([0x666572], [0x3032322b3630372b343031]), ([0x6c6176], [0x444544467830]), ([0x65707974], [0x757165])],
  [([0x6469], [0x31373232]), ([0x656d616e], [0x223052474822]), ([0x657a697372646461], [0x6574756c6f736261]), ([0x65706f6373], [0x31]), ([0x666564], [0x373039]), ([0x666572], [0x343432312b30313131]), ([0x6c6176], [0x324633467830]), ([0x65707974], [0x757165])]]

/-- player/iivision.dbg, sym lines 2272-2303 -/
def symLines71 : List (List (List Nat × List Nat)) := [
  [([0x6469], [0x32373232]), ([0x656d616e], [0x2252474822]), ([0x657a697372646461], [0x6574756c6f736261]), ([0x65706f6373], [0x31]), ([0x666564], [0x323931]), ([0x6c6176], [0x324533467830]), ([0x65707974], [0x757165])],
  [([0x6469], [0x33373232]), ([0x656d616e], [0x224e4f53455249484422]), ([0x657a697372646461], [0x6574756c6f736261]), ([0x65706f6373], [0x31]), ([0x666564], [0x303236]), ([0x666572], [0x313134]), ([0x6c6176], [0x453530437830]), ([0x65707974], [0x757165])],
  [([0x6469], [0x34373232]), ([0x656d616e], [0x224e4f534552494822]), ([0x657a697372646461], [0x6574756c6f736261]), ([0x65706f6373], [0x31]), ([0x666564], [0x373337]), ([0x666572], [0x37363231]), ([0x6c6176], [0x373530437830]), ([0x65707974], [0x757165])],
  [([0x6469], [0x35373232]), ([0x656d616e], [0x224e4f324547415022]), ([0x657a697372646461], [0x6574756c6f736261]), ([0x65706f6373], [0x31]), ([0x666564], [0x363032]), ([0x666572], [0x3333]), ([0x6c6176], [0x353530437830]), ([0x65707974], [0x757165])],
  [([0x6469], [0x36373232]), ([0x656d616e], [0x2246464f324547415022]), ([0x657a697372646461], [0x6574756c6f736261]), ([0x65706f6373], [0x31]), ([0x666564], [0x373132]), ([0x666572], [0x31333031]), ([0x6c6176], [0x343530437830]), ([0x65707974], [0x757165])],
  [([0x6469], [0x37373232]), ([0x656d616e], [0x225243534c4c554622]), ([0x657a697372646461], [0x6574756c6f736261]), ([0x65706f6373], [0x31]), ([0x666564], [0x313438]), ([0x666572], [0x39353031]), ([0x6c6176], [0x323530437830]), ([0x65707974], [0x757165])],
  [([0x6469], [0x38373232]), ([0x656d616e], [0x2246464f5458455422]), ([0x657a697372646461], [0x6574756c6f736261]), ([0x65706f6373], [0x31]), ([0x666564], [0x323234]), ([0x666572], [0x37312b303439]), ([0x6c6176], [0x303530437830]), ([0x65707974], [0x757165])],
  [([0x6469], [0x39373232]), ([0x656d616e], [0x224b43495422]), ([0x657a697372646461], [0x6574756c6f736261]), ([0x65706f6373], [0x31]), ([0x666564], [0x31383231]), ([0x666572], [0x373131312b373131312b373131312b373131312b373131312b3137352b353233, 0x312b373131312b373131312b373131312b373131312b373131312b373131312b, 0x3131312b373131312b373131312b373131312b373131312b373131312b373131, 0x2b373131312b373131312b373131312b373131312b373131312b373131312b37, 0x31312b373131312b373131312b373131312b373131312b373131312b37313131, 0x373131312b373131312b373131312b373131312b373131312b373131312b3731, 0x312b373131312b373131312b373131312b373131312b373131312b373131312b, 0x3131312b373131312b373131312b373131312b373131312b373131312b373131, 0x2b373131312b373131312b373131312b373131312b373131312b373131312b37, 0x31312b373131312b373131312b373131312b373131312b373131312b37313131, 0x2b3431342b3431342b3431342b3431342b3431342b3431342b373131312b3731, 0x2b3431342b3431342b3431342b3431342b3431342b3431342b3431342b343134, 0x2b3431342b3431342b3431342b3431342b3431342b3431342b3431342b343134, 0x2b3431342b3431342b3431342b3431342b3431342b3431342b3431342b343134, 0x2b3431342b3431342b3431342b3431342b3431342b3431342b3431342b343134, 0x2b3431342b3431342b3431342b3431342b3431342b3431342b3431342b343134, 0x2b3431342b3431342b3431342b3431342b3431342b3431342b3431342b343134, 0x2b3431342b3431342b3431342b3431342b3431342b3431342b3431342b343134, 0x2b3137372b3137372b3137372b3137372b3137372b3137372b3431342b343134, 0x2b3137372b3137372b3137372b3137372b3137372b3137372b3137372b313737, 0x2b3137372b3137372b3137372b3137372b3137372b3137372b3137372b313737, 0x2b3137372b3137372b3137372b3137372b3137372b3137372b3137372b313737, 0x2b3137372b3137372b3137372b3137372b3137372b3137372b3137372b313737, 0x2b3137372b3137372b3137372b3137372b3137372b3137372b3137372b313737, 0x2b3137372b3137372b3137372b3137372b3137372b3137372b3137372b313737, 0x2b3137372b3137372b3137372b3137372b3137372b3137372b3137372b313737, 0x2b3239352b3239352b3239352b3239352b3239352b3239352b3137372b313737, 0x2b3239352b3239352b3239352b3239352b3239352b3239352b3239352b323935, 0x2b3239352b3239352b3239352b3239352b3239352b3239352b3239352b323935, 0x2b3239352b3239352b3239352b3239352b3239352b3239352b3239352b323935, 0x2b3239352b3239352b3239352b3239352b3239352b3239352b3239352b323935, 0x2b3239352b3239352b3239352b3239352b3239352b3239352b3239352b323935, 0x2b3239352b3239352b3239352b3239352b3239352b3239352b3239352b323935, 0x2b3239352b3239352b3239352b3239352b3239352b3239352b3239352b323935, 0x2b3135372b3135372b3135372b3135372b3135372b3135372b3239352b323935, 0x2b3135372b3135372b3135372b3135372b3135372b3135372b3135372b313537, 0x2b3135372b3135372b3135372b3135372b3135372b3135372b3135372b313537, 0x2b3135372b3135372b3135372b3135372b3135372b3135372b3135372b313537, 0x2b3135372b3135372b3135372b3135372b3135372b3135372b3135372b313537, 0x2b3135372b3135372b3135372b3135372b3135372b3135372b3135372b313537, 0x2b3135372b3135372b3135372b3135372b3135372b3135372b3135372b313537, 0x2b3135372b3135372b3135372b3135372b3135372b3135372b3135372b313537, 0x2b3231392b3231392b3339382b3339382b3633332b3633332b3135372b313537, 0x2b3038382b3038382b3737342b3737342b3838362b3838362b3734332b373433, 0x332b39332b3139382b3139382b393733312b393733312b343531312b34353131, 0x37382b3837382b3837382b3837382b3837382b3837382b3837382b3837382b39, 0x37382b3837382b3837382b3837382b3837382b3837382b3837382b3837382b38, 0x37382b3837382b3837382b3837382b3837382b3837382b3837382b3837382b38, 0x37382b3837382b3837382b3837382b3837382b3837382b3837382b3837382b38, 0x37382b3837382b3837382b3837382b3837382b3837382b3837382b3837382b38, 0x37382b3837382b3837382b3837382b3837382b3837382b3837382b3837382b38, 0x37382b3837382b3837382b3837382b3837382b3837382b3837382b3837382b38, 0x37382b3837382b3837382b3837382b3837382b3837382b3837382b3837382b38, 0x2b313632312b313632312b313632312b313632312b313632312b313632312b38, 0x32312b313632312b313632312b313632312b313632312b313632312b31363231, 0x313632312b313632312b313632312b313632312b313632312b313632312b3136, 0x312b313632312b313632312b313632312b313632312b313632312b313632312b, 0x3632312b313632312b313632312b313632312b313632312b313632312b313632, 0x2b313632312b313632312b313632312b313632312b313632312b313632312b31, 0x32312b313632312b313632312b313632312b313632312b313632312b31363231, 0x313632312b313632312b313632312b313632312b313632312b313632312b3136, 0x312b313632312b313632312b313632312b313632312b313632312b313632312b, 0x3632312b313632312b313632312b313632312b313632312b313632312b313632, 0x2b323830312b323830312b323830312b323830312b323830312b323830312b31, 0x30312b323830312b323830312b323830312b323830312b323830312b32383031, 0x323830312b323830312b323830312b323830312b323830312b323830312b3238, 0x312b323830312b323830312b323830312b323830312b323830312b323830312b, 0x3830312b323830312b323830312b323830312b323830312b323830312b323830, 0x2b323830312b323830312b323830312b323830312b323830312b323830312b32, 0x30312b323830312b323830312b323830312b323830312b323830312b32383031, 0x323830312b323830312b323830312b323830312b323830312b323830312b3238, 0x312b323830312b323830312b323830312b323830312b323830312b323830312b, 0x3830312b323830312b323830312b323830312b323830312b323830312b323830, 0x2b302b302b302b302b302b302b302b302b302b302b302b302b302b302b302b32, 0x2b302b302b302b302b302b302b302b302b302b302b302b302b302b302b302b30, 0x2b302b302b302b302b302b302b302b302b302b302b302b302b302b302b302b30, 0x2b302b302b302b302b302b302b302b302b302b302b302b302b302b302b302b30, 0x2b38322b38322b38322b38322b38322b38322b38322b38322b38322b38322b30, 0x38322b38322b38322b38322b38322b38322b38322b38322b38322b38322b3832, 0x322b38322b38322b38322b38322b38322b38322b38322b38322b38322b38322b, 0x2b38322b38322b38322b38322b38322b38322b38322b38322b38322b38322b38, 0x38322b38322b38322b38322b38322b38322b38322b38322b38322b38322b3832, 0x322b38322b38322b38322b38322b38322b38322b38322b38322b38322b38322b, 0x37382b3537382b3537382b3537382b3537382b3537382b3537382b3537382b38, 0x37382b3537382b3537382b3537382b3537382b3537382b3537382b3537382b35, 0x37382b3537382b3537382b3537382b3537382b3537382b3537382b3537382b35, 0x37382b3537382b3537382b3537382b3537382b3537382b3537382b3537382b35, 0x37382b3537382b3537382b3537382b3537382b3537382b3537382b3537382b35, 0x37382b3537382b3537382b3537382b3537382b3537382b3537382b3537382b35, 0x37382b3537382b3537382b3537382b3537382b3537382b3537382b3537382b35, 0x37382b3537382b3537382b3537382b3537382b3537382b3537382b3537382b35, 0x2b363932312b363932312b363932312b363932312b363932312b363932312b35, 0x32312b363932312b363932312b363932312b363932312b363932312b36393231, 0x363932312b363932312b363932312b363932312b363932312b363932312b3639, 0x312b363932312b363932312b363932312b363932312b363932312b363932312b, 0x3932312b363932312b363932312b363932312b363932312b363932312b363932, 0x2b363932312b363932312b363932312b363932312b363932312b363932312b36, 0x32312b363932312b363932312b363932312b363932312b363932312b36393231, 0x363932312b363932312b363932312b363932312b363932312b363932312b3639, 0x312b363932312b363932312b363932312b363932312b363932312b363932312b, 0x3932312b363932312b363932312b363932312b363932312b363932312b363932, 0x30362b3730362b3730362b3730362b3730362b3730362b3730362b3730362b36, 0x30362b3730362b3730362b3730362b3730362b3730362b3730362b3730362b37, 0x30362b3730362b3730362b3730362b3730362b3730362b3730362b3730362b37, 0x30362b3730362b3730362b3730362b3730362b3730362b3730362b3730362b37, 0x30362b3730362b3730362b3730362b3730362b3730362b3730362b3730362b37, 0x30362b3730362b3730362b3730362b3730362b3730362b3730362b3730362b37, 0x30362b3730362b3730362b3730362b3730362b3730362b3730362b3730362b37, 0x30362b3730362b3730362b3730362b3730362b3730362b3730362b3730362b37, 0x36352b3836352b3836352b3836352b3836352b3836352b3836352b3836352b37, 0x36352b3836352b3836352b3836352b3836352b3836352b3836352b3836352b38, 0x36352b3836352b3836352b3836352b3836352b3836352b3836352b3836352b38, 0x36352b3836352b3836352b3836352b3836352b3836352b3836352b3836352b38, 0x36352b3836352b3836352b3836352b3836352b3836352b3836352b3836352b38, 0x36352b3836352b3836352b3836352b3836352b3836352b3836352b3836352b38, 0x36352b3836352b3836352b3836352b3836352b3836352b3836352b3836352b38, 0x36352b3836352b3836352b3836352b3836352b3836352b3836352b3836352b38, 0x2b373333312b373333312b373333312b373333312b373333312b373333312b38, 0x33312b373333312b373333312b373333312b373333312b373333312b37333331, 0x373333312b373333312b373333312b373333312b373333312b373333312b3733, 0x312b373333312b373333312b373333312b373333312b373333312b373333312b, 0x3333312b373333312b373333312b373333312b373333312b373333312b373333, 0x2b373333312b373333312b373333312b373333312b373333312b373333312b37, 0x33312b373333312b373333312b373333312b373333312b373333312b37333331, 0x373333312b373333312b373333312b373333312b373333312b373333312b3733, 0x312b373333312b373333312b373333312b373333312b373333312b373333312b, 0x3333312b373333312b373333312b373333312b373333312b373333312b373333, 0x36342b3836342b3836342b3836342b3836342b3836342b3836342b3836342b37, 0x36342b3836342b3836342b3836342b3836342b3836342b3836342b3836342b38, 0x36342b3836342b3836342b3836342b3836342b3836342b3836342b3836342b38, 0x36342b3836342b3836342b3836342b3836342b3836342b3836342b3836342b38, 0x36342b3836342b3836342b3836342b3836342b3836342b3836342b3836342b38, 0x36342b3836342b3836342b3836342b3836342b3836342b3836342b3836342b38, 0x36342b3836342b3836342b3836342b3836342b3836342b3836342b3836342b38, 0x36342b3836342b3836342b3836342b3836342b3836342b3836342b3836342b38, 0x34392b3834392b3834392b3834392b3834392b3834392b3834392b3834392b38, 0x34392b3834392b3834392b3834392b3834392b3834392b3834392b3834392b38, 0x34392b3834392b3834392b3834392b3834392b3834392b3834392b3834392b38, 0x34392b3834392b3834392b3834392b3834392b3834392b3834392b3834392b38, 0x34392b3834392b3834392b3834392b3834392b3834392b3834392b3834392b38, 0x34392b3834392b3834392b3834392b3834392b3834392b3834392b3834392b38, 0x34392b3834392b3834392b3834392b3834392b3834392b3834392b3834392b38, 0x34392b3834392b3834392b3834392b3834392b3834392b3834392b3834392b38, 0x31322b3931322b3931322b3931322b3931322b3931322b3931322b3931322b38, 0x31322b3931322b3931322b3931322b3931322b3931322b3931322b3931322b39, 0x31322b3931322b3931322b3931322b3931322b3931322b3931322b3931322b39, 0x31322b3931322b3931322b3931322b3931322b3931322b3931322b3931322b39, 0x31322b3931322b3931322b3931322b3931322b3931322b3931322b3931322b39, 0x31322b3931322b3931322b3931322b3931322b3931322b3931322b3931322b39, 0x31322b3931322b3931322b3931322b3931322b3931322b3931322b3931322b39, 0x31322b3931322b3931322b3931322b3931322b3931322b3931322b3931322b39, 0x2b383733312b383733312b383733312b383733312b383733312b383733312b39, 0x33312b383733312b383733312b383733312b383733312b383733312b38373331, 0x383733312b383733312b383733312b383733312b383733312b383733312b3837, 0x312b383733312b383733312b383733312b383733312b383733312b383733312b, 0x3733312b383733312b383733312b383733312b383733312b383733312b383733, 0x2b383733312b383733312b383733312b383733312b383733312b383733312b38, 0x33312b383733312b383733312b383733312b383733312b383733312b38373331, 0x383733312b383733312b383733312b383733312b383733312b383733312b3837, 0x312b383733312b383733312b383733312b383733312b383733312b383733312b, 0x3733312b383733312b383733312b383733312b383733312b383733312b383733, 0x30312b3030312b3030312b3030312b3030312b3030312b3030312b3030312b38, 0x30312b3030312b3030312b3030312b3030312b3030312b3030312b3030312b30, 0x30312b3030312b3030312b3030312b3030312b3030312b3030312b3030312b30, 0x30312b3030312b3030312b3030312b3030312b3030312b3030312b3030312b30, 0x30312b3030312b3030312b3030312b3030312b3030312b3030312b3030312b30, 0x30312b3030312b3030312b3030312b3030312b3030312b3030312b3030312b30, 0x30312b3030312b3030312b3030312b3030312b3030312b3030312b3030312b30, 0x30312b3030312b3030312b3030312b3030312b3030312b3030312b3030312b30, 0x37372b3737372b3737372b3737372b3737372b3737372b3737372b3737372b30, 0x37372b3737372b3737372b3737372b3737372b3737372b3737372b3737372b37, 0x37372b3737372b3737372b3737372b3737372b3737372b3737372b3737372b37, 0x37372b3737372b3737372b3737372b3737372b3737372b3737372b3737372b37, 0x37372b3737372b3737372b3737372b3737372b3737372b3737372b3737372b37, 0x37372b3737372b3737372b3737372b3737372b3737372b3737372b3737372b37, 0x37372b3737372b3737372b3737372b3737372b3737372b3737372b3737372b37, 0x37372b3737372b3737372b3737372b3737372b3737372b3737372b3737372b37, 0x2b393830312b393830312b393830312b393830312b393830312b393830312b37, 0x30312b393830312b393830312b393830312b393830312b393830312b39383031, 0x393830312b393830312b393830312b393830312b393830312b393830312b3938, 0x312b393830312b393830312b393830312b393830312b393830312b393830312b, 0x3830312b393830312b393830312b393830312b393830312b393830312b393830, 0x2b393830312b393830312b393830312b393830312b393830312b393830312b39, 0x30312b393830312b393830312b393830312b393830312b393830312b39383031, 0x393830312b393830312b393830312b393830312b393830312b393830312b3938, 0x312b393830312b393830312b393830312b393830312b393830312b393830312b, 0x3830312b393830312b393830312b393830312b393830312b393830312b393830, 0x2b323031312b323031312b323031312b323031312b323031312b323031312b39, 0x31312b323031312b323031312b323031312b323031312b323031312b32303131, 0x323031312b323031312b323031312b323031312b323031312b323031312b3230, 0x312b323031312b323031312b323031312b323031312b323031312b323031312b, 0x3031312b323031312b323031312b323031312b323031312b323031312b323031, 0x2b323031312b323031312b323031312b323031312b323031312b323031312b32, 0x31312b323031312b323031312b323031312b323031312b323031312b32303131, 0x323031312b323031312b323031312b323031312b323031312b323031312b3230, 0x312b323031312b323031312b323031312b323031312b323031312b323031312b, 0x3031312b323031312b323031312b323031312b323031312b323031312b323031, 0x2b393633312b393633312b393633312b393633312b393633312b393633312b32, 0x33312b393633312b393633312b393633312b393633312b393633312b39363331, 0x393633312b393633312b393633312b393633312b393633312b393633312b3936, 0x312b393633312b393633312b393633312b393633312b393633312b393633312b, 0x3633312b393633312b393633312b393633312b393633312b393633312b393633, 0x2b393633312b393633312b393633312b393633312b393633312b393633312b39, 0x33312b393633312b393633312b393633312b393633312b393633312b39363331, 0x393633312b393633312b393633312b393633312b393633312b393633312b3936, 0x312b393633312b393633312b393633312b393633312b393633312b393633312b, 0x3633312b393633312b393633312b393633312b393633312b393633312b393633, 0x35392b3735392b3735392b3735392b3735392b3735392b3735392b3735392b39, 0x35392b3735392b3735392b3735392b3735392b3735392b3735392b3735392b37, 0x35392b3735392b3735392b3735392b3735392b3735392b3735392b3735392b37, 0x35392b3735392b3735392b3735392b3735392b3735392b3735392b3735392b37, 0x35392b3735392b3735392b3735392b3735392b3735392b3735392b3735392b37, 0x35392b3735392b3735392b3735392b3735392b3735392b3735392b3735392b37, 0x35392b3735392b3735392b3735392b3735392b3735392b3735392b3735392b37, 0x35392b3735392b3735392b3735392b3735392b3735392b3735392b3735392b37, 0x2b313833312b313833312b313833312b313833312b313833312b313833312b37, 0x33312b313833312b313833312b313833312b313833312b313833312b31383331, 0x313833312b313833312b313833312b313833312b313833312b313833312b3138, 0x312b313833312b313833312b313833312b313833312b313833312b313833312b, 0x3833312b313833312b313833312b313833312b313833312b313833312b313833, 0x2b313833312b313833312b313833312b313833312b313833312b313833312b31, 0x33312b313833312b313833312b313833312b313833312b313833312b31383331, 0x313833312b313833312b313833312b313833312b313833312b313833312b3138, 0x312b313833312b313833312b313833312b313833312b313833312b313833312b, 0x3833312b313833312b313833312b313833312b313833312b313833312b313833, 0x2b353830312b353830312b353830312b353830312b353830312b353830312b31, 0x30312b353830312b353830312b353830312b353830312b353830312b35383031, 0x353830312b353830312b353830312b353830312b353830312b353830312b3538, 0x312b353830312b353830312b353830312b353830312b353830312b353830312b, 0x3830312b353830312b353830312b353830312b353830312b353830312b353830, 0x2b353830312b353830312b353830312b353830312b353830312b353830312b35, 0x30312b353830312b353830312b353830312b353830312b353830312b35383031, 0x353830312b353830312b353830312b353830312b353830312b353830312b3538, 0x312b353830312b353830312b353830312b353830312b353830312b353830312b, 0x3830312b353830312b353830312b353830312b353830312b353830312b353830, 0x33362b3933362b3933362b3933362b3933362b3933362b3933362b3933362b35, 0x33362b3933362b3933362b3933362b3933362b3933362b3933362b3933362b39, 0x33362b3933362b3933362b3933362b3933362b3933362b3933362b3933362b39, 0x33362b3933362b3933362b3933362b3933362b3933362b3933362b3933362b39, 0x33362b3933362b3933362b3933362b3933362b3933362b3933362b3933362b39, 0x33362b3933362b3933362b3933362b3933362b3933362b3933362b3933362b39, 0x33362b3933362b3933362b3933362b3933362b3933362b3933362b3933362b39, 0x33362b3933362b3933362b3933362b3933362b3933362b3933362b3933362b39, 0x30312b3630312b3630312b3630312b3630312b3630312b3630312b3630312b39, 0x30312b3630312b3630312b3630312b3630312b3630312b3630312b3630312b36, 0x30312b3630312b3630312b3630312b3630312b3630312b3630312b3630312b36, 0x30312b3630312b3630312b3630312b3630312b3630312b3630312b3630312b36, 0x30312b3630312b3630312b3630312b3630312b3630312b3630312b3630312b36, 0x30312b3630312b3630312b3630312b3630312b3630312b3630312b3630312b36, 0x30312b3630312b3630312b3630312b3630312b3630312b3630312b3630312b36, 0x30312b3630312b3630312b3630312b3630312b3630312b3630312b3630312b36, 0x2b313332312b313332312b313332312b313332312b313332312b313332312b36, 0x32312b313332312b313332312b313332312b313332312b313332312b31333231, 0x313332312b313332312b313332312b313332312b313332312b313332312b3133, 0x312b313332312b313332312b313332312b313332312b313332312b313332312b, 0x3332312b313332312b313332312b313332312b313332312b313332312b313332, 0x2b313332312b313332312b313332312b313332312b313332312b313332312b31, 0x32312b313332312b313332312b313332312b313332312b313332312b31333231, 0x313332312b313332312b313332312b313332312b313332312b313332312b3133, 0x312b313332312b313332312b313332312b313332312b313332312b313332312b, 0x3332312b313332312b313332312b313332312b313332312b313332312b313332, 0x2b313831312b313831312b313831312b313831312b313831312b313831312b31, 0x31312b313831312b313831312b313831312b313831312b313831312b31383131, 0x313831312b313831312b313831312b313831312b313831312b313831312b3138, 0x312b313831312b313831312b313831312b313831312b313831312b313831312b, 0x3831312b313831312b313831312b313831312b313831312b313831312b313831, 0x2b313831312b313831312b313831312b313831312b313831312b313831312b31, 0x31312b313831312b313831312b313831312b313831312b313831312b31383131, 0x313831312b313831312b313831312b313831312b313831312b313831312b3138, 0x312b313831312b313831312b313831312b313831312b313831312b313831312b, 0x3831312b313831312b313831312b313831312b313831312b313831312b313831, 0x353630312b353230312b353230312b3336322b3336322b3735352b3735352b31, 0x2b3439372b3439372b3931312b3931312b323730312b323730312b353630312b, 0x3031312b363031312b3637352b3637352b36392b36392b313031312b31303131, 0x2b3538372b3830352b3830352b353131312b353131312b3338382b3338382b36, 0x33312b3230352b3230352b313132312b313132312b3730332b3730332b353837, 0x3434352b3232382b3835322b3835322b3438372b3438372b323833312b3238]), ([0x6c6176], [0x303330437830]), ([0x65707974], [0x757165])],
  [([0x6469], [0x30383232]), ([0x656d616e], [0x224252545344424b22]), ([0x657a697372646461], [0x6574756c6f736261]), ([0x65706f6373], [0x31]), ([0x666564], [0x343333]), ([0x666572], [0x3539372b3337322b3439342b37353131]), ([0x6c6176], [0x303130437830]), ([0x65707974], [0x757165])],
  [([0x6469], [0x31383232]), ([0x656d616e], [0x224e4f30384c4f4322]), ([0x657a697372646461], [0x6574756c6f736261]), ([0x65706f6373], [0x31]), ([0x666564], [0x38363231]), ([0x666572], [0x36383031]), ([0x6c6176], [0x443030437830]), ([0x65707974], [0x757165])],
  [([0x6469], [0x32383232]), ([0x656d616e], [0x224e4f303845524f545322]), ([0x657a697372646461], [0x6574756c6f736261]), ([0x65706f6373], [0x31]), ([0x666564], [0x353735]), ([0x666572], [0x343139]), ([0x6c6176], [0x313030437830]), ([0x65707974], [0x757165])],
  [([0x6469], [0x33383232]), ([0x656d616e], [0x2244424b22]), ([0x657a697372646461], [0x6574756c6f736261]), ([0x65706f6373], [0x31]), ([0x666564], [0x323039]), ([0x666572], [0x363333312b3738342b33333131]), ([0x6c6176], [0x303030437830]), ([0x65707974], [0x757165])],
  [([0x6469], [0x34383232]), ([0x656d616e], [0x22505a52474822]), ([0x657a697372646461], [0x656761706f72657a]), ([0x65706f6373], [0x31]), ([0x666564], [0x383138]), ([0x666572], [0x3530352b33363231]), ([0x6c6176], [0x36457830]), ([0x65707974], [0x757165])],
  [([0x6469], [0x35383232]), ([0x656d616e], [0x2272747022]), ([0x657a697372646461], [0x656761706f72657a]), ([0x65706f6373], [0x31]), ([0x666564], [0x30343331]), ([0x666572], [0x3238382b353938]), ([0x6c6176], [0x367830]), ([0x65707974], [0x757165])],
  [([0x6469], [0x36383232]), ([0x656d616e], [0x22796d6d756422]), ([0x657a697372646461], [0x6574756c6f736261]), ([0x65706f6373], [0x31]), ([0x666564], [0x39343131]), ([0x666572], [0x2b3431342b373131312b373131312b373131312b393132312b3835342b363434, 0x2b3239352b3239352b3239352b3137372b3137372b3137372b3431342b343134, 0x3632312b313632312b3837382b3837382b3837382b3135372b3135372b313537, 0x322b38322b302b302b302b323830312b323830312b323830312b313632312b31, 0x2b363932312b363932312b363932312b3537382b3537382b3537382b38322b38, 0x3333312b373333312b3836352b3836352b3836352b3730362b3730362b373036, 0x322b3834392b3834392b3834392b3836342b3836342b3836342b373333312b37, 0x30312b3030312b383733312b383733312b383733312b3931322b3931322b3931, 0x393830312b393830312b393830312b3737372b3737372b3737372b3030312b30, 0x392b393633312b393633312b393633312b323031312b323031312b323031312b, 0x312b353830312b313833312b313833312b313833312b3735392b3735392b3735, 0x3630312b3630312b3630312b3933362b3933362b3933362b353830312b353830, 0x332b313831312b313831312b313831312b313332312b313332312b313332312b, 0x3438372b3230352b3730]), ([0x6c6176], [0x464646467830]), ([0x65707974], [0x757165])],
  [([0x6469], [0x37383232]), ([0x656d616e], [0x22796d6d7564707a22]), ([0x657a697372646461], [0x656761706f72657a]), ([0x65706f6373], [0x31]), ([0x666564], [0x323333]), ([0x666572], [0x31312b373131312b373131312b373131312b373131312b373131312b37313131, 0x373131312b373131312b373131312b373131312b373131312b373131312b3731, 0x312b373131312b373131312b373131312b373131312b373131312b373131312b, 0x342b3431342b3431342b3431342b373131312b373131312b373131312b373131, 0x342b3431342b3431342b3431342b3431342b3431342b3431342b3431342b3431, 0x342b3431342b3431342b3431342b3431342b3431342b3431342b3431342b3431, 0x372b3137372b3137372b3137372b3137372b3431342b3431342b3431342b3431, 0x372b3137372b3137372b3137372b3137372b3137372b3137372b3137372b3137, 0x372b3137372b3137372b3137372b3137372b3137372b3137372b3137372b3137, 0x352b3239352b3239352b3239352b3239352b3239352b3137372b3137372b3137, 0x352b3239352b3239352b3239352b3239352b3239352b3239352b3239352b3239, 0x352b3239352b3239352b3239352b3239352b3239352b3239352b3239352b3239, 0x372b3135372b3135372b3135372b3135372b3135372b3135372b3239352b3239, 0x372b3135372b3135372b3135372b3135372b3135372b3135372b3135372b3135, 0x372b3135372b3135372b3135372b3135372b3135372b3135372b3135372b3135, 0x2b3139382b393733312b3838362b3231392b3339382b3633332b3633332b3135, 0x382b3837382b3837382b3837382b3837382b3837382b3837382b3837382b3933, 0x382b3837382b3837382b3837382b3837382b3837382b3837382b3837382b3837, 0x312b3837382b3837382b3837382b3837382b3837382b3837382b3837382b3837, 0x3632312b313632312b313632312b313632312b313632312b313632312b313632, 0x2b313632312b313632312b313632312b313632312b313632312b313632312b31, 0x32312b313632312b313632312b313632312b313632312b313632312b31363231, 0x323830312b323830312b323830312b313632312b313632312b313632312b3136, 0x312b323830312b323830312b323830312b323830312b323830312b323830312b, 0x3830312b323830312b323830312b323830312b323830312b323830312b323830, 0x2b323830312b323830312b323830312b323830312b323830312b323830312b32, 0x302b302b302b302b302b302b302b302b302b302b302b302b302b302b32383031, 0x322b38322b38322b38322b38322b302b302b302b302b302b302b302b302b302b, 0x2b38322b38322b38322b38322b38322b38322b38322b38322b38322b38322b38, 0x2b3537382b3537382b38322b38322b38322b38322b38322b38322b38322b3832, 0x2b3537382b3537382b3537382b3537382b3537382b3537382b3537382b353738, 0x2b3537382b3537382b3537382b3537382b3537382b3537382b3537382b353738, 0x32312b363932312b363932312b3537382b3537382b3537382b3537382b353738, 0x363932312b363932312b363932312b363932312b363932312b363932312b3639, 0x312b363932312b363932312b363932312b363932312b363932312b363932312b, 0x3932312b363932312b363932312b363932312b363932312b363932312b363932, 0x362b3730362b3730362b3730362b3730362b3730362b3730362b363932312b36, 0x362b3730362b3730362b3730362b3730362b3730362b3730362b3730362b3730, 0x362b3730362b3730362b3730362b3730362b3730362b3730362b3730362b3730, 0x352b3836352b3836352b3836352b3836352b3836352b3836352b3836352b3730, 0x352b3836352b3836352b3836352b3836352b3836352b3836352b3836352b3836, 0x312b3836352b3836352b3836352b3836352b3836352b3836352b3836352b3836, 0x3333312b373333312b373333312b373333312b373333312b373333312b373333, 0x2b373333312b373333312b373333312b373333312b373333312b373333312b37, 0x33312b373333312b373333312b373333312b373333312b373333312b37333331, 0x36342b3836342b3836342b3836342b373333312b373333312b373333312b3733, 0x36342b3836342b3836342b3836342b3836342b3836342b3836342b3836342b38, 0x36342b3836342b3836342b3836342b3836342b3836342b3836342b3836342b38, 0x34392b3834392b3834392b3834392b3834392b3836342b3836342b3836342b38, 0x34392b3834392b3834392b3834392b3834392b3834392b3834392b3834392b38, 0x34392b3834392b3834392b3834392b3834392b3834392b3834392b3834392b38, 0x31322b3931322b3931322b3931322b3931322b3931322b3834392b3834392b38, 0x31322b3931322b3931322b3931322b3931322b3931322b3931322b3931322b39, 0x31322b3931322b3931322b3931322b3931322b3931322b3931322b3931322b39, 0x312b383733312b383733312b383733312b383733312b383733312b3931322b39, 0x3733312b383733312b383733312b383733312b383733312b383733312b383733, 0x2b383733312b383733312b383733312b383733312b383733312b383733312b38, 0x3030312b3030312b383733312b383733312b383733312b383733312b38373331, 0x3030312b3030312b3030312b3030312b3030312b3030312b3030312b3030312b, 0x3030312b3030312b3030312b3030312b3030312b3030312b3030312b3030312b, 0x3737372b3737372b3737372b3030312b3030312b3030312b3030312b3030312b, 0x3737372b3737372b3737372b3737372b3737372b3737372b3737372b3737372b, 0x3737372b3737372b3737372b3737372b3737372b3737372b3737372b3737372b, 0x2b393830312b393830312b393830312b3737372b3737372b3737372b3737372b, 0x30312b393830312b393830312b393830312b393830312b393830312b39383031, 0x393830312b393830312b393830312b393830312b393830312b393830312b3938, 0x312b393830312b393830312b393830312b393830312b393830312b393830312b, 0x3031312b323031312b323031312b323031312b323031312b323031312b393830, 0x2b323031312b323031312b323031312b323031312b323031312b323031312b32, 0x31312b323031312b323031312b323031312b323031312b323031312b32303131, 0x393633312b393633312b323031312b323031312b323031312b323031312b3230, 0x312b393633312b393633312b393633312b393633312b393633312b393633312b, 0x3633312b393633312b393633312b393633312b393633312b393633312b393633, 0x2b393633312b393633312b393633312b393633312b393633312b393633312b39, 0x35392b3735392b3735392b3735392b3735392b3735392b393633312b39363331, 0x35392b3735392b3735392b3735392b3735392b3735392b3735392b3735392b37, 0x35392b3735392b3735392b3735392b3735392b3735392b3735392b3735392b37, 0x312b313833312b313833312b313833312b313833312b313833312b3735392b37, 0x3833312b313833312b313833312b313833312b313833312b313833312b313833, 0x2b313833312b313833312b313833312b313833312b313833312b313833312b31, 0x30312b353830312b313833312b313833312b313833312b313833312b31383331, 0x353830312b353830312b353830312b353830312b353830312b353830312b3538, 0x312b353830312b353830312b353830312b353830312b353830312b353830312b, 0x3830312b353830312b353830312b353830312b353830312b353830312b353830, 0x2b3933362b3933362b3933362b3933362b3933362b353830312b353830312b35, 0x2b3933362b3933362b3933362b3933362b3933362b3933362b3933362b393336, 0x2b3933362b3933362b3933362b3933362b3933362b3933362b3933362b393336, 0x2b3630312b3630312b3630312b3630312b3630312b3630312b3933362b393336, 0x2b3630312b3630312b3630312b3630312b3630312b3630312b3630312b363031, 0x2b3630312b3630312b3630312b3630312b3630312b3630312b3630312b363031, 0x3332312b313332312b313332312b313332312b313332312b313332312b363031, 0x2b313332312b313332312b313332312b313332312b313332312b313332312b31, 0x32312b313332312b313332312b313332312b313332312b313332312b31333231, 0x313831312b313831312b313332312b313332312b313332312b313332312b3133, 0x312b313831312b313831312b313831312b313831312b313831312b313831312b, 0x3831312b313831312b313831312b313831312b313831312b313831312b313831, 0x2b313831312b313831312b313831312b313831312b313831312b313831312b31, 0x352b36392b313031312b3439372b353230312b3735352b313831312b31383131, 0x33312b323833312b313132312b313132312b3538372b3538372b3338382b3637, 0x3835322b3835322b3238]), ([0x6c6176], [0x387830]), ([0x65707974], [0x757165])],
  [([0x6469], [0x38383232]), ([0x656d616e], [0x226e656c72656461656822]), ([0x657a697372646461], [0x656761706f72657a]), ([0x65706f6373], [0x31]), ([0x666564], [0x323034]), ([0x666572], [0x373533]), ([0x6c6176], [0x377830]), ([0x65707974], [0x757165])],
  [([0x6469], [0x39383232]), ([0x656d616e], [0x22415441445722]), ([0x657a697372646461], [0x6574756c6f736261]), ([0x65706f6373], [0x31]), ([0x666564], [0x33363031]), ([0x666572], [0x3834372b3432352b393831312b3335372b3436342b3435332b3935352b393735, 0x2b3436372b3233362b33372b3833322b3734372b3130312b373831312b35322b, 0x2b3938342b303233312b3238352b313231312b3136342b333631312b35343031, 0x373131312b373131312b373131312b373131312b373131312b3732342b373835, 0x312b373131312b373131312b373131312b373131312b373131312b373131312b, 0x3131312b373131312b373131312b373131312b373131312b373131312b373131, 0x2b373131312b373131312b373131312b373131312b373131312b373131312b37, 0x31312b373131312b373131312b373131312b373131312b373131312b37313131, 0x373131312b373131312b373131312b373131312b373131312b373131312b3731, 0x312b373131312b373131312b373131312b373131312b373131312b373131312b, 0x3131312b373131312b373131312b373131312b373131312b373131312b373131, 0x2b373131312b373131312b373131312b373131312b373131312b373131312b37, 0x31312b373131312b373131312b373131312b373131312b373131312b37313131, 0x373131312b373131312b373131312b373131312b373131312b373131312b3731, 0x312b373131312b373131312b373131312b373131312b373131312b373131312b, 0x3131312b373131312b373131312b373131312b373131312b373131312b373131, 0x2b373131312b373131312b373131312b373131312b373131312b373131312b37, 0x31312b373131312b373131312b373131312b373131312b373131312b37313131, 0x373131312b373131312b373131312b373131312b373131312b373131312b3731, 0x312b373131312b373131312b373131312b373131312b373131312b373131312b, 0x3131312b373131312b373131312b373131312b373131312b373131312b373131, 0x2b373131312b373131312b373131312b373131312b373131312b373131312b37, 0x31312b373131312b373131312b373131312b373131312b373131312b37313131, 0x373131312b373131312b373131312b373131312b373131312b373131312b3731, 0x312b373131312b373131312b373131312b373131312b373131312b373131312b, 0x3131312b373131312b373131312b373131312b373131312b373131312b373131, 0x2b373131312b373131312b373131312b373131312b373131312b373131312b37, 0x342b3431342b3431342b3431342b3431342b373131312b373131312b37313131, 0x342b3431342b3431342b3431342b3431342b3431342b3431342b3431342b3431, 0x342b3431342b3431342b3431342b3431342b3431342b3431342b3431342b3431, 0x342b3431342b3431342b3431342b3431342b3431342b3431342b3431342b3431, 0x342b3431342b3431342b3431342b3431342b3431342b3431342b3431342b3431, 0x342b3431342b3431342b3431342b3431342b3431342b3431342b3431342b3431, 0x342b3431342b3431342b3431342b3431342b3431342b3431342b3431342b3431, 0x342b3431342b3431342b3431342b3431342b3431342b3431342b3431342b3431, 0x342b3431342b3431342b3431342b3431342b3431342b3431342b3431342b3431, 0x342b3431342b3431342b3431342b3431342b3431342b3431342b3431342b3431, 0x342b3431342b3431342b3431342b3431342b3431342b3431342b3431342b3431, 0x342b3431342b3431342b3431342b3431342b3431342b3431342b3431342b3431, 0x342b3431342b3431342b3431342b3431342b3431342b3431342b3431342b3431, 0x342b3431342b3431342b3431342b3431342b3431342b3431342b3431342b3431, 0x342b3431342b3431342b3431342b3431342b3431342b3431342b3431342b3431, 0x342b3431342b3431342b3431342b3431342b3431342b3431342b3431342b3431, 0x342b3431342b3431342b3431342b3431342b3431342b3431342b3431342b3431, 0x342b3431342b3431342b3431342b3431342b3431342b3431342b3431342b3431, 0x342b3431342b3431342b3431342b3431342b3431342b3431342b3431342b3431, 0x372b3137372b3431342b3431342b3431342b3431342b3431342b3431342b3431, 0x372b3137372b3137372b3137372b3137372b3137372b3137372b3137372b3137, 0x372b3137372b3137372b3137372b3137372b3137372b3137372b3137372b3137, 0x372b3137372b3137372b3137372b3137372b3137372b3137372b3137372b3137, 0x372b3137372b3137372b3137372b3137372b3137372b3137372b3137372b3137, 0x372b3137372b3137372b3137372b3137372b3137372b3137372b3137372b3137, 0x372b3137372b3137372b3137372b3137372b3137372b3137372b3137372b3137, 0x372b3137372b3137372b3137372b3137372b3137372b3137372b3137372b3137, 0x372b3137372b3137372b3137372b3137372b3137372b3137372b3137372b3137, 0x372b3137372b3137372b3137372b3137372b3137372b3137372b3137372b3137, 0x372b3137372b3137372b3137372b3137372b3137372b3137372b3137372b3137, 0x372b3137372b3137372b3137372b3137372b3137372b3137372b3137372b3137, 0x372b3137372b3137372b3137372b3137372b3137372b3137372b3137372b3137, 0x372b3137372b3137372b3137372b3137372b3137372b3137372b3137372b3137, 0x372b3137372b3137372b3137372b3137372b3137372b3137372b3137372b3137, 0x372b3137372b3137372b3137372b3137372b3137372b3137372b3137372b3137, 0x372b3137372b3137372b3137372b3137372b3137372b3137372b3137372b3137, 0x372b3137372b3137372b3137372b3137372b3137372b3137372b3137372b3137, 0x372b3137372b3137372b3137372b3137372b3137372b3137372b3137372b3137, 0x372b3137372b3137372b3137372b3137372b3137372b3137372b3137372b3137, 0x352b3239352b3239352b3239352b3239352b3239352b3239352b3137372b3137, 0x352b3239352b3239352b3239352b3239352b3239352b3239352b3239352b3239, 0x352b3239352b3239352b3239352b3239352b3239352b3239352b3239352b3239, 0x352b3239352b3239352b3239352b3239352b3239352b3239352b3239352b3239, 0x352b3239352b3239352b3239352b3239352b3239352b3239352b3239352b3239, 0x352b3239352b3239352b3239352b3239352b3239352b3239352b3239352b3239, 0x352b3239352b3239352b3239352b3239352b3239352b3239352b3239352b3239, 0x352b3239352b3239352b3239352b3239352b3239352b3239352b3239352b3239, 0x352b3239352b3239352b3239352b3239352b3239352b3239352b3239352b3239, 0x352b3239352b3239352b3239352b3239352b3239352b3239352b3239352b3239, 0x352b3239352b3239352b3239352b3239352b3239352b3239352b3239352b3239, 0x352b3239352b3239352b3239352b3239352b3239352b3239352b3239352b3239, 0x352b3239352b3239352b3239352b3239352b3239352b3239352b3239352b3239, 0x352b3239352b3239352b3239352b3239352b3239352b3239352b3239352b3239, 0x352b3239352b3239352b3239352b3239352b3239352b3239352b3239352b3239, 0x352b3239352b3239352b3239352b3239352b3239352b3239352b3239352b3239, 0x352b3239352b3239352b3239352b3239352b3239352b3239352b3239352b3239, 0x352b3239352b3239352b3239352b3239352b3239352b3239352b3239352b3239, 0x352b3239352b3239352b3239352b3239352b3239352b3239352b3239352b3239, 0x372b3135372b3135372b3135372b3239352b3239352b3239352b3239352b3239, 0x372b3135372b3135372b3135372b3135372b3135372b3135372b3135372b3135, 0x372b3135372b3135372b3135372b3135372b3135372b3135372b3135372b3135, 0x372b3135372b3135372b3135372b3135372b3135372b3135372b3135372b3135, 0x372b3135372b3135372b3135372b3135372b3135372b3135372b3135372b3135, 0x372b3135372b3135372b3135372b3135372b3135372b3135372b3135372b3135, 0x372b3135372b3135372b3135372b3135372b3135372b3135372b3135372b3135, 0x372b3135372b3135372b3135372b3135372b3135372b3135372b3135372b3135, 0x372b3135372b3135372b3135372b3135372b3135372b3135372b3135372b3135, 0x372b3135372b3135372b3135372b3135372b3135372b3135372b3135372b3135, 0x372b3135372b3135372b3135372b3135372b3135372b3135372b3135372b3135, 0x372b3135372b3135372b3135372b3135372b3135372b3135372b3135372b3135, 0x372b3135372b3135372b3135372b3135372b3135372b3135372b3135372b3135, 0x372b3135372b3135372b3135372b3135372b3135372b3135372b3135372b3135, 0x372b3135372b3135372b3135372b3135372b3135372b3135372b3135372b3135, 0x372b3135372b3135372b3135372b3135372b3135372b3135372b3135372b3135, 0x372b3135372b3135372b3135372b3135372b3135372b3135372b3135372b3135, 0x372b3135372b3135372b3135372b3135372b3135372b3135372b3135372b3135, 0x372b3135372b3135372b3135372b3135372b3135372b3135372b3135372b3135, 0x332b3135372b3135372b3135372b3135372b3135372b3135372b3135372b3135, 0x382b3339382b3633332b3633332b3633332b3633332b3633332b3633332b3633, 0x362b3734332b3231392b3339382b3339382b3339382b3339382b3339382b3339, 0x2b343531312b3038382b3038382b3038382b3737342b3737342b3838362b3838, 0x33312b343531312b343531312b343531312b343531312b343531312b34353131, 0x3837382b39332b39332b39332b3139382b3139382b3139382b393733312b3937, 0x3837382b3837382b3837382b3837382b3837382b3837382b3837382b3837382b, 0x3837382b3837382b3837382b3837382b3837382b3837382b3837382b3837382b, 0x3837382b3837382b3837382b3837382b3837382b3837382b3837382b3837382b, 0x3837382b3837382b3837382b3837382b3837382b3837382b3837382b3837382b, 0x3837382b3837382b3837382b3837382b3837382b3837382b3837382b3837382b, 0x3837382b3837382b3837382b3837382b3837382b3837382b3837382b3837382b, 0x3837382b3837382b3837382b3837382b3837382b3837382b3837382b3837382b, 0x3837382b3837382b3837382b3837382b3837382b3837382b3837382b3837382b, 0x3837382b3837382b3837382b3837382b3837382b3837382b3837382b3837382b, 0x3837382b3837382b3837382b3837382b3837382b3837382b3837382b3837382b, 0x3837382b3837382b3837382b3837382b3837382b3837382b3837382b3837382b, 0x3837382b3837382b3837382b3837382b3837382b3837382b3837382b3837382b, 0x3837382b3837382b3837382b3837382b3837382b3837382b3837382b3837382b, 0x3837382b3837382b3837382b3837382b3837382b3837382b3837382b3837382b, 0x3837382b3837382b3837382b3837382b3837382b3837382b3837382b3837382b, 0x3837382b3837382b3837382b3837382b3837382b3837382b3837382b3837382b, 0x3837382b3837382b3837382b3837382b3837382b3837382b3837382b3837382b, 0x3837382b3837382b3837382b3837382b3837382b3837382b3837382b3837382b, 0x3837382b3837382b3837382b3837382b3837382b3837382b3837382b3837382b, 0x3632312b313632312b313632312b313632312b313632312b3837382b3837382b, 0x2b313632312b313632312b313632312b313632312b313632312b313632312b31, 0x32312b313632312b313632312b313632312b313632312b313632312b31363231, 0x313632312b313632312b313632312b313632312b313632312b313632312b3136, 0x312b313632312b313632312b313632312b313632312b313632312b313632312b, 0x3632312b313632312b313632312b313632312b313632312b313632312b313632, 0x2b313632312b313632312b313632312b313632312b313632312b313632312b31, 0x32312b313632312b313632312b313632312b313632312b313632312b31363231, 0x313632312b313632312b313632312b313632312b313632312b313632312b3136, 0x312b313632312b313632312b313632312b313632312b313632312b313632312b, 0x3632312b313632312b313632312b313632312b313632312b313632312b313632, 0x2b313632312b313632312b313632312b313632312b313632312b313632312b31, 0x32312b313632312b313632312b313632312b313632312b313632312b31363231, 0x313632312b313632312b313632312b313632312b313632312b313632312b3136, 0x312b313632312b313632312b313632312b313632312b313632312b313632312b, 0x3632312b313632312b313632312b313632312b313632312b313632312b313632, 0x2b313632312b313632312b313632312b313632312b313632312b313632312b31, 0x32312b313632312b313632312b313632312b313632312b313632312b31363231, 0x313632312b313632312b313632312b313632312b313632312b313632312b3136, 0x312b313632312b313632312b313632312b313632312b313632312b313632312b, 0x3632312b313632312b313632312b313632312b313632312b313632312b313632, 0x2b313632312b313632312b313632312b313632312b313632312b313632312b31, 0x32312b313632312b313632312b313632312b313632312b313632312b31363231, 0x313632312b313632312b313632312b313632312b313632312b313632312b3136, 0x312b323830312b323830312b323830312b313632312b313632312b313632312b, 0x3830312b323830312b323830312b323830312b323830312b323830312b323830, 0x2b323830312b323830312b323830312b323830312b323830312b323830312b32, 0x30312b323830312b323830312b323830312b323830312b323830312b32383031, 0x323830312b323830312b323830312b323830312b323830312b323830312b3238, 0x312b323830312b323830312b323830312b323830312b323830312b323830312b, 0x3830312b323830312b323830312b323830312b323830312b323830312b323830, 0x2b323830312b323830312b323830312b323830312b323830312b323830312b32, 0x30312b323830312b323830312b323830312b323830312b323830312b32383031, 0x323830312b323830312b323830312b323830312b323830312b323830312b3238, 0x312b323830312b323830312b323830312b323830312b323830312b323830312b, 0x3830312b323830312b323830312b323830312b323830312b323830312b323830, 0x2b323830312b323830312b323830312b323830312b323830312b323830312b32, 0x30312b323830312b323830312b323830312b323830312b323830312b32383031, 0x323830312b323830312b323830312b323830312b323830312b323830312b3238, 0x312b323830312b323830312b323830312b323830312b323830312b323830312b, 0x3830312b323830312b323830312b323830312b323830312b323830312b323830, 0x2b323830312b323830312b323830312b323830312b323830312b323830312b32, 0x30312b323830312b323830312b323830312b323830312b323830312b32383031, 0x323830312b323830312b323830312b323830312b323830312b323830312b3238, 0x312b323830312b323830312b323830312b323830312b323830312b323830312b, 0x3830312b323830312b323830312b323830312b323830312b323830312b323830, 0x2b323830312b323830312b323830312b323830312b323830312b323830312b32, 0x30312b323830312b323830312b323830312b323830312b323830312b32383031, 0x302b302b302b302b302b323830312b323830312b323830312b323830312b3238, 0x302b302b302b302b302b302b302b302b302b302b302b302b302b302b302b302b, 0x302b302b302b302b302b302b302b302b302b302b302b302b302b302b302b302b, 0x302b302b302b302b302b302b302b302b302b302b302b302b302b302b302b302b, 0x302b302b302b302b302b302b302b302b302b302b302b302b302b302b302b302b, 0x302b302b302b302b302b302b302b302b302b302b302b302b302b302b302b302b, 0x302b302b302b302b302b302b302b302b302b302b302b302b302b302b302b302b, 0x302b302b302b302b302b302b302b302b302b302b302b302b302b302b302b302b, 0x302b302b302b302b302b302b302b302b302b302b302b302b302b302b302b302b, 0x302b302b302b302b302b302b302b302b302b302b302b302b302b302b302b302b, 0x322b38322b38322b38322b38322b38322b38322b302b302b302b302b302b302b, 0x2b38322b38322b38322b38322b38322b38322b38322b38322b38322b38322b38, 0x38322b38322b38322b38322b38322b38322b38322b38322b38322b38322b3832, 0x322b38322b38322b38322b38322b38322b38322b38322b38322b38322b38322b, 0x2b38322b38322b38322b38322b38322b38322b38322b38322b38322b38322b38, 0x38322b38322b38322b38322b38322b38322b38322b38322b38322b38322b3832, 0x322b38322b38322b38322b38322b38322b38322b38322b38322b38322b38322b, 0x2b38322b38322b38322b38322b38322b38322b38322b38322b38322b38322b38, 0x38322b38322b38322b38322b38322b38322b38322b38322b38322b38322b3832, 0x322b38322b38322b38322b38322b38322b38322b38322b38322b38322b38322b, 0x2b38322b38322b38322b38322b38322b38322b38322b38322b38322b38322b38, 0x38322b38322b38322b38322b38322b38322b38322b38322b38322b38322b3832, 0x322b38322b38322b38322b38322b38322b38322b38322b38322b38322b38322b, 0x2b38322b38322b38322b38322b38322b38322b38322b38322b38322b38322b38, 0x37382b38322b38322b38322b38322b38322b38322b38322b38322b38322b3832, 0x37382b3537382b3537382b3537382b3537382b3537382b3537382b3537382b35, 0x37382b3537382b3537382b3537382b3537382b3537382b3537382b3537382b35, 0x37382b3537382b3537382b3537382b3537382b3537382b3537382b3537382b35, 0x37382b3537382b3537382b3537382b3537382b3537382b3537382b3537382b35, 0x37382b3537382b3537382b3537382b3537382b3537382b3537382b3537382b35, 0x37382b3537382b3537382b3537382b3537382b3537382b3537382b3537382b35, 0x37382b3537382b3537382b3537382b3537382b3537382b3537382b3537382b35, 0x37382b3537382b3537382b3537382b3537382b3537382b3537382b3537382b35, 0x37382b3537382b3537382b3537382b3537382b3537382b3537382b3537382b35, 0x37382b3537382b3537382b3537382b3537382b3537382b3537382b3537382b35, 0x37382b3537382b3537382b3537382b3537382b3537382b3537382b3537382b35, 0x37382b3537382b3537382b3537382b3537382b3537382b3537382b3537382b35, 0x37382b3537382b3537382b3537382b3537382b3537382b3537382b3537382b35, 0x37382b3537382b3537382b3537382b3537382b3537382b3537382b3537382b35, 0x37382b3537382b3537382b3537382b3537382b3537382b3537382b3537382b35, 0x37382b3537382b3537382b3537382b3537382b3537382b3537382b3537382b35, 0x37382b3537382b3537382b3537382b3537382b3537382b3537382b3537382b35, 0x37382b3537382b3537382b3537382b3537382b3537382b3537382b3537382b35, 0x37382b3537382b3537382b3537382b3537382b3537382b3537382b3537382b35, 0x32312b363932312b363932312b363932312b363932312b3537382b3537382b35, 0x363932312b363932312b363932312b363932312b363932312b363932312b3639, 0x312b363932312b363932312b363932312b363932312b363932312b363932312b, 0x3932312b363932312b363932312b363932312b363932312b363932312b363932, 0x2b363932312b363932312b363932312b363932312b363932312b363932312b36, 0x32312b363932312b363932312b363932312b363932312b363932312b36393231, 0x363932312b363932312b363932312b363932312b363932312b363932312b3639, 0x312b363932312b363932312b363932312b363932312b363932312b363932312b, 0x3932312b363932312b363932312b363932312b363932312b363932312b363932, 0x2b363932312b363932312b363932312b363932312b363932312b363932312b36, 0x32312b363932312b363932312b363932312b363932312b363932312b36393231, 0x363932312b363932312b363932312b363932312b363932312b363932312b3639, 0x312b363932312b363932312b363932312b363932312b363932312b363932312b, 0x3932312b363932312b363932312b363932312b363932312b363932312b363932, 0x2b363932312b363932312b363932312b363932312b363932312b363932312b36, 0x32312b363932312b363932312b363932312b363932312b363932312b36393231, 0x363932312b363932312b363932312b363932312b363932312b363932312b3639, 0x312b363932312b363932312b363932312b363932312b363932312b363932312b, 0x3932312b363932312b363932312b363932312b363932312b363932312b363932, 0x2b363932312b363932312b363932312b363932312b363932312b363932312b36, 0x32312b363932312b363932312b363932312b363932312b363932312b36393231, 0x363932312b363932312b363932312b363932312b363932312b363932312b3639, 0x312b363932312b363932312b363932312b363932312b363932312b363932312b, 0x3932312b363932312b363932312b363932312b363932312b363932312b363932, 0x3730362b3730362b3730362b3730362b363932312b363932312b363932312b36, 0x3730362b3730362b3730362b3730362b3730362b3730362b3730362b3730362b, 0x3730362b3730362b3730362b3730362b3730362b3730362b3730362b3730362b, 0x3730362b3730362b3730362b3730362b3730362b3730362b3730362b3730362b, 0x3730362b3730362b3730362b3730362b3730362b3730362b3730362b3730362b, 0x3730362b3730362b3730362b3730362b3730362b3730362b3730362b3730362b, 0x3730362b3730362b3730362b3730362b3730362b3730362b3730362b3730362b, 0x3730362b3730362b3730362b3730362b3730362b3730362b3730362b3730362b, 0x3730362b3730362b3730362b3730362b3730362b3730362b3730362b3730362b, 0x3730362b3730362b3730362b3730362b3730362b3730362b3730362b3730362b, 0x3730362b3730362b3730362b3730362b3730362b3730362b3730362b3730362b, 0x3730362b3730362b3730362b3730362b3730362b3730362b3730362b3730362b, 0x3730362b3730362b3730362b3730362b3730362b3730362b3730362b3730362b, 0x3730362b3730362b3730362b3730362b3730362b3730362b3730362b3730362b, 0x3730362b3730362b3730362b3730362b3730362b3730362b3730362b3730362b, 0x3730362b3730362b3730362b3730362b3730362b3730362b3730362b3730362b, 0x3730362b3730362b3730362b3730362b3730362b3730362b3730362b3730362b, 0x3730362b3730362b3730362b3730362b3730362b3730362b3730362b3730362b, 0x3730362b3730362b3730362b3730362b3730362b3730362b3730362b3730362b, 0x3836352b3730362b3730362b3730362b3730362b3730362b3730362b3730362b, 0x3836352b3836352b3836352b3836352b3836352b3836352b3836352b3836352b, 0x3836352b3836352b3836352b3836352b3836352b3836352b3836352b3836352b, 0x3836352b3836352b3836352b3836352b3836352b3836352b3836352b3836352b, 0x3836352b3836352b3836352b3836352b3836352b3836352b3836352b3836352b, 0x3836352b3836352b3836352b3836352b3836352b3836352b3836352b3836352b, 0x3836352b3836352b3836352b3836352b3836352b3836352b3836352b3836352b, 0x3836352b3836352b3836352b3836352b3836352b3836352b3836352b3836352b, 0x3836352b3836352b3836352b3836352b3836352b3836352b3836352b3836352b, 0x3836352b3836352b3836352b3836352b3836352b3836352b3836352b3836352b, 0x3836352b3836352b3836352b3836352b3836352b3836352b3836352b3836352b, 0x3836352b3836352b3836352b3836352b3836352b3836352b3836352b3836352b, 0x3836352b3836352b3836352b3836352b3836352b3836352b3836352b3836352b, 0x3836352b3836352b3836352b3836352b3836352b3836352b3836352b3836352b, 0x3836352b3836352b3836352b3836352b3836352b3836352b3836352b3836352b, 0x3836352b3836352b3836352b3836352b3836352b3836352b3836352b3836352b, 0x3836352b3836352b3836352b3836352b3836352b3836352b3836352b3836352b, 0x3836352b3836352b3836352b3836352b3836352b3836352b3836352b3836352b, 0x3836352b3836352b3836352b3836352b3836352b3836352b3836352b3836352b, 0x3836352b3836352b3836352b3836352b3836352b3836352b3836352b3836352b, 0x3333312b373333312b373333312b373333312b373333312b3836352b3836352b, 0x2b373333312b373333312b373333312b373333312b373333312b373333312b37, 0x33312b373333312b373333312b373333312b373333312b373333312b37333331, 0x373333312b373333312b373333312b373333312b373333312b373333312b3733, 0x312b373333312b373333312b373333312b373333312b373333312b373333312b, 0x3333312b373333312b373333312b373333312b373333312b373333312b373333, 0x2b373333312b373333312b373333312b373333312b373333312b373333312b37, 0x33312b373333312b373333312b373333312b373333312b373333312b37333331, 0x373333312b373333312b373333312b373333312b373333312b373333312b3733, 0x312b373333312b373333312b373333312b373333312b373333312b373333312b, 0x3333312b373333312b373333312b373333312b373333312b373333312b373333, 0x2b373333312b373333312b373333312b373333312b373333312b373333312b37, 0x33312b373333312b373333312b373333312b373333312b373333312b37333331, 0x373333312b373333312b373333312b373333312b373333312b373333312b3733, 0x312b373333312b373333312b373333312b373333312b373333312b373333312b, 0x3333312b373333312b373333312b373333312b373333312b373333312b373333, 0x2b373333312b373333312b373333312b373333312b373333312b373333312b37, 0x33312b373333312b373333312b373333312b373333312b373333312b37333331, 0x373333312b373333312b373333312b373333312b373333312b373333312b3733, 0x312b373333312b373333312b373333312b373333312b373333312b373333312b, 0x3333312b373333312b373333312b373333312b373333312b373333312b373333, 0x2b373333312b373333312b373333312b373333312b373333312b373333312b37, 0x33312b373333312b373333312b373333312b373333312b373333312b37333331, 0x373333312b373333312b373333312b373333312b373333312b373333312b3733, 0x2b3836342b3836342b3836342b3836342b373333312b373333312b373333312b, 0x2b3836342b3836342b3836342b3836342b3836342b3836342b3836342b383634, 0x2b3836342b3836342b3836342b3836342b3836342b3836342b3836342b383634, 0x2b3836342b3836342b3836342b3836342b3836342b3836342b3836342b383634, 0x2b3836342b3836342b3836342b3836342b3836342b3836342b3836342b383634, 0x2b3836342b3836342b3836342b3836342b3836342b3836342b3836342b383634, 0x2b3836342b3836342b3836342b3836342b3836342b3836342b3836342b383634, 0x2b3836342b3836342b3836342b3836342b3836342b3836342b3836342b383634, 0x2b3836342b3836342b3836342b3836342b3836342b3836342b3836342b383634, 0x2b3836342b3836342b3836342b3836342b3836342b3836342b3836342b383634, 0x2b3836342b3836342b3836342b3836342b3836342b3836342b3836342b383634, 0x2b3836342b3836342b3836342b3836342b3836342b3836342b3836342b383634, 0x2b3836342b3836342b3836342b3836342b3836342b3836342b3836342b383634, 0x2b3836342b3836342b3836342b3836342b3836342b3836342b3836342b383634, 0x2b3836342b3836342b3836342b3836342b3836342b3836342b3836342b383634, 0x2b3836342b3836342b3836342b3836342b3836342b3836342b3836342b383634, 0x2b3836342b3836342b3836342b3836342b3836342b3836342b3836342b383634, 0x2b3836342b3836342b3836342b3836342b3836342b3836342b3836342b383634, 0x2b3836342b3836342b3836342b3836342b3836342b3836342b3836342b383634, 0x2b3834392b3836342b3836342b3836342b3836342b3836342b3836342b383634, 0x2b3834392b3834392b3834392b3834392b3834392b3834392b3834392b383439, 0x2b3834392b3834392b3834392b3834392b3834392b3834392b3834392b383439, 0x2b3834392b3834392b3834392b3834392b3834392b3834392b3834392b383439, 0x2b3834392b3834392b3834392b3834392b3834392b3834392b3834392b383439, 0x2b3834392b3834392b3834392b3834392b3834392b3834392b3834392b383439, 0x2b3834392b3834392b3834392b3834392b3834392b3834392b3834392b383439, 0x2b3834392b3834392b3834392b3834392b3834392b3834392b3834392b383439, 0x2b3834392b3834392b3834392b3834392b3834392b3834392b3834392b383439, 0x2b3834392b3834392b3834392b3834392b3834392b3834392b3834392b383439, 0x2b3834392b3834392b3834392b3834392b3834392b3834392b3834392b383439, 0x2b3834392b3834392b3834392b3834392b3834392b3834392b3834392b383439, 0x2b3834392b3834392b3834392b3834392b3834392b3834392b3834392b383439, 0x2b3834392b3834392b3834392b3834392b3834392b3834392b3834392b383439, 0x2b3834392b3834392b3834392b3834392b3834392b3834392b3834392b383439, 0x2b3834392b3834392b3834392b3834392b3834392b3834392b3834392b383439, 0x2b3834392b3834392b3834392b3834392b3834392b3834392b3834392b383439, 0x2b3834392b3834392b3834392b3834392b3834392b3834392b3834392b383439, 0x2b3834392b3834392b3834392b3834392b3834392b3834392b3834392b383439, 0x2b3834392b3834392b3834392b3834392b3834392b3834392b3834392b383439, 0x2b3931322b3931322b3931322b3931322b3931322b3931322b3834392b383439, 0x2b3931322b3931322b3931322b3931322b3931322b3931322b3931322b393132, 0x2b3931322b3931322b3931322b3931322b3931322b3931322b3931322b393132, 0x2b3931322b3931322b3931322b3931322b3931322b3931322b3931322b393132, 0x2b3931322b3931322b3931322b3931322b3931322b3931322b3931322b393132, 0x2b3931322b3931322b3931322b3931322b3931322b3931322b3931322b393132, 0x2b3931322b3931322b3931322b3931322b3931322b3931322b3931322b393132, 0x2b3931322b3931322b3931322b3931322b3931322b3931322b3931322b393132, 0x2b3931322b3931322b3931322b3931322b3931322b3931322b3931322b393132, 0x2b3931322b3931322b3931322b3931322b3931322b3931322b3931322b393132, 0x2b3931322b3931322b3931322b3931322b3931322b3931322b3931322b393132, 0x2b3931322b3931322b3931322b3931322b3931322b3931322b3931322b393132, 0x2b3931322b3931322b3931322b3931322b3931322b3931322b3931322b393132, 0x2b3931322b3931322b3931322b3931322b3931322b3931322b3931322b393132, 0x2b3931322b3931322b3931322b3931322b3931322b3931322b3931322b393132, 0x2b3931322b3931322b3931322b3931322b3931322b3931322b3931322b393132, 0x2b3931322b3931322b3931322b3931322b3931322b3931322b3931322b393132, 0x2b3931322b3931322b3931322b3931322b3931322b3931322b3931322b393132, 0x2b3931322b3931322b3931322b3931322b3931322b3931322b3931322b393132, 0x33312b383733312b383733312b3931322b3931322b3931322b3931322b393132, 0x383733312b383733312b383733312b383733312b383733312b383733312b3837, 0x312b383733312b383733312b383733312b383733312b383733312b383733312b, 0x3733312b383733312b383733312b383733312b383733312b383733312b383733, 0x2b383733312b383733312b383733312b383733312b383733312b383733312b38, 0x33312b383733312b383733312b383733312b383733312b383733312b38373331, 0x383733312b383733312b383733312b383733312b383733312b383733312b3837, 0x312b383733312b383733312b383733312b383733312b383733312b383733312b, 0x3733312b383733312b383733312b383733312b383733312b383733312b383733, 0x2b383733312b383733312b383733312b383733312b383733312b383733312b38, 0x33312b383733312b383733312b383733312b383733312b383733312b38373331, 0x383733312b383733312b383733312b383733312b383733312b383733312b3837, 0x312b383733312b383733312b383733312b383733312b383733312b383733312b, 0x3733312b383733312b383733312b383733312b383733312b383733312b383733, 0x2b383733312b383733312b383733312b383733312b383733312b383733312b38, 0x33312b383733312b383733312b383733312b383733312b383733312b38373331, 0x383733312b383733312b383733312b383733312b383733312b383733312b3837, 0x312b383733312b383733312b383733312b383733312b383733312b383733312b, 0x3733312b383733312b383733312b383733312b383733312b383733312b383733, 0x2b383733312b383733312b383733312b383733312b383733312b383733312b38, 0x33312b383733312b383733312b383733312b383733312b383733312b38373331, 0x383733312b383733312b383733312b383733312b383733312b383733312b3837, 0x312b383733312b383733312b383733312b383733312b383733312b383733312b, 0x3733312b383733312b383733312b383733312b383733312b383733312b383733, 0x312b3030312b383733312b383733312b383733312b383733312b383733312b38, 0x312b3030312b3030312b3030312b3030312b3030312b3030312b3030312b3030, 0x312b3030312b3030312b3030312b3030312b3030312b3030312b3030312b3030, 0x312b3030312b3030312b3030312b3030312b3030312b3030312b3030312b3030, 0x312b3030312b3030312b3030312b3030312b3030312b3030312b3030312b3030, 0x312b3030312b3030312b3030312b3030312b3030312b3030312b3030312b3030, 0x312b3030312b3030312b3030312b3030312b3030312b3030312b3030312b3030, 0x312b3030312b3030312b3030312b3030312b3030312b3030312b3030312b3030, 0x312b3030312b3030312b3030312b3030312b3030312b3030312b3030312b3030, 0x312b3030312b3030312b3030312b3030312b3030312b3030312b3030312b3030, 0x312b3030312b3030312b3030312b3030312b3030312b3030312b3030312b3030, 0x312b3030312b3030312b3030312b3030312b3030312b3030312b3030312b3030, 0x312b3030312b3030312b3030312b3030312b3030312b3030312b3030312b3030, 0x312b3030312b3030312b3030312b3030312b3030312b3030312b3030312b3030, 0x312b3030312b3030312b3030312b3030312b3030312b3030312b3030312b3030, 0x312b3030312b3030312b3030312b3030312b3030312b3030312b3030312b3030, 0x312b3030312b3030312b3030312b3030312b3030312b3030312b3030312b3030, 0x312b3030312b3030312b3030312b3030312b3030312b3030312b3030312b3030, 0x312b3030312b3030312b3030312b3030312b3030312b3030312b3030312b3030, 0x312b3030312b3030312b3030312b3030312b3030312b3030312b3030312b3030, 0x372b3737372b3737372b3737372b3737372b3737372b3737372b3030312b3030, 0x372b3737372b3737372b3737372b3737372b3737372b3737372b3737372b3737, 0x372b3737372b3737372b3737372b3737372b3737372b3737372b3737372b3737, 0x372b3737372b3737372b3737372b3737372b3737372b3737372b3737372b3737, 0x372b3737372b3737372b3737372b3737372b3737372b3737372b3737372b3737, 0x372b3737372b3737372b3737372b3737372b3737372b3737372b3737372b3737, 0x372b3737372b3737372b3737372b3737372b3737372b3737372b3737372b3737, 0x372b3737372b3737372b3737372b3737372b3737372b3737372b3737372b3737, 0x372b3737372b3737372b3737372b3737372b3737372b3737372b3737372b3737, 0x372b3737372b3737372b3737372b3737372b3737372b3737372b3737372b3737, 0x372b3737372b3737372b3737372b3737372b3737372b3737372b3737372b3737, 0x372b3737372b3737372b3737372b3737372b3737372b3737372b3737372b3737, 0x372b3737372b3737372b3737372b3737372b3737372b3737372b3737372b3737, 0x372b3737372b3737372b3737372b3737372b3737372b3737372b3737372b3737, 0x372b3737372b3737372b3737372b3737372b3737372b3737372b3737372b3737, 0x372b3737372b3737372b3737372b3737372b3737372b3737372b3737372b3737, 0x372b3737372b3737372b3737372b3737372b3737372b3737372b3737372b3737, 0x372b3737372b3737372b3737372b3737372b3737372b3737372b3737372b3737, 0x372b3737372b3737372b3737372b3737372b3737372b3737372b3737372b3737, 0x3830312b393830312b393830312b3737372b3737372b3737372b3737372b3737, 0x2b393830312b393830312b393830312b393830312b393830312b393830312b39, 0x30312b393830312b393830312b393830312b393830312b393830312b39383031, 0x393830312b393830312b393830312b393830312b393830312b393830312b3938, 0x312b393830312b393830312b393830312b393830312b393830312b393830312b, 0x3830312b393830312b393830312b393830312b393830312b393830312b393830, 0x2b393830312b393830312b393830312b393830312b393830312b393830312b39, 0x30312b393830312b393830312b393830312b393830312b393830312b39383031, 0x393830312b393830312b393830312b393830312b393830312b393830312b3938, 0x312b393830312b393830312b393830312b393830312b393830312b393830312b, 0x3830312b393830312b393830312b393830312b393830312b393830312b393830, 0x2b393830312b393830312b393830312b393830312b393830312b393830312b39, 0x30312b393830312b393830312b393830312b393830312b393830312b39383031, 0x393830312b393830312b393830312b393830312b393830312b393830312b3938, 0x312b393830312b393830312b393830312b393830312b393830312b393830312b, 0x3830312b393830312b393830312b393830312b393830312b393830312b393830, 0x2b393830312b393830312b393830312b393830312b393830312b393830312b39, 0x30312b393830312b393830312b393830312b393830312b393830312b39383031, 0x393830312b393830312b393830312b393830312b393830312b393830312b3938, 0x312b393830312b393830312b393830312b393830312b393830312b393830312b, 0x3830312b393830312b393830312b393830312b393830312b393830312b393830, 0x2b393830312b393830312b393830312b393830312b393830312b393830312b39, 0x30312b393830312b393830312b393830312b393830312b393830312b39383031, 0x393830312b393830312b393830312b393830312b393830312b393830312b3938, 0x312b323031312b393830312b393830312b393830312b393830312b393830312b, 0x3031312b323031312b323031312b323031312b323031312b323031312b323031, 0x2b323031312b323031312b323031312b323031312b323031312b323031312b32, 0x31312b323031312b323031312b323031312b323031312b323031312b32303131, 0x323031312b323031312b323031312b323031312b323031312b323031312b3230, 0x312b323031312b323031312b323031312b323031312b323031312b323031312b, 0x3031312b323031312b323031312b323031312b323031312b323031312b323031, 0x2b323031312b323031312b323031312b323031312b323031312b323031312b32, 0x31312b323031312b323031312b323031312b323031312b323031312b32303131, 0x323031312b323031312b323031312b323031312b323031312b323031312b3230, 0x312b323031312b323031312b323031312b323031312b323031312b323031312b, 0x3031312b323031312b323031312b323031312b323031312b323031312b323031, 0x2b323031312b323031312b323031312b323031312b323031312b323031312b32, 0x31312b323031312b323031312b323031312b323031312b323031312b32303131, 0x323031312b323031312b323031312b323031312b323031312b323031312b3230, 0x312b323031312b323031312b323031312b323031312b323031312b323031312b, 0x3031312b323031312b323031312b323031312b323031312b323031312b323031, 0x2b323031312b323031312b323031312b323031312b323031312b323031312b32, 0x31312b323031312b323031312b323031312b323031312b323031312b32303131, 0x323031312b323031312b323031312b323031312b323031312b323031312b3230, 0x312b323031312b323031312b323031312b323031312b323031312b323031312b, 0x3031312b323031312b323031312b323031312b323031312b323031312b323031, 0x2b323031312b323031312b323031312b323031312b323031312b323031312b32, 0x31312b323031312b323031312b323031312b323031312b323031312b32303131, 0x323031312b323031312b323031312b323031312b323031312b323031312b3230, 0x312b393633312b393633312b393633312b393633312b393633312b393633312b, 0x3633312b393633312b393633312b393633312b393633312b393633312b393633, 0x2b393633312b393633312b393633312b393633312b393633312b393633312b39, 0x33312b393633312b393633312b393633312b393633312b393633312b39363331, 0x393633312b393633312b393633312b393633312b393633312b393633312b3936, 0x312b393633312b393633312b393633312b393633312b393633312b393633312b, 0x3633312b393633312b393633312b393633312b393633312b393633312b393633, 0x2b393633312b393633312b393633312b393633312b393633312b393633312b39, 0x33312b393633312b393633312b393633312b393633312b393633312b39363331, 0x393633312b393633312b393633312b393633312b393633312b393633312b3936, 0x312b393633312b393633312b393633312b393633312b393633312b393633312b, 0x3633312b393633312b393633312b393633312b393633312b393633312b393633, 0x2b393633312b393633312b393633312b393633312b393633312b393633312b39, 0x33312b393633312b393633312b393633312b393633312b393633312b39363331, 0x393633312b393633312b393633312b393633312b393633312b393633312b3936, 0x312b393633312b393633312b393633312b393633312b393633312b393633312b, 0x3633312b393633312b393633312b393633312b393633312b393633312b393633, 0x2b393633312b393633312b393633312b393633312b393633312b393633312b39, 0x33312b393633312b393633312b393633312b393633312b393633312b39363331, 0x393633312b393633312b393633312b393633312b393633312b393633312b3936, 0x312b393633312b393633312b393633312b393633312b393633312b393633312b, 0x3633312b393633312b393633312b393633312b393633312b393633312b393633, 0x2b393633312b393633312b393633312b393633312b393633312b393633312b39, 0x33312b393633312b393633312b393633312b393633312b393633312b39363331, 0x2b3735392b3735392b3735392b3735392b3735392b3735392b393633312b3936, 0x2b3735392b3735392b3735392b3735392b3735392b3735392b3735392b373539, 0x2b3735392b3735392b3735392b3735392b3735392b3735392b3735392b373539, 0x2b3735392b3735392b3735392b3735392b3735392b3735392b3735392b373539, 0x2b3735392b3735392b3735392b3735392b3735392b3735392b3735392b373539, 0x2b3735392b3735392b3735392b3735392b3735392b3735392b3735392b373539, 0x2b3735392b3735392b3735392b3735392b3735392b3735392b3735392b373539, 0x2b3735392b3735392b3735392b3735392b3735392b3735392b3735392b373539, 0x2b3735392b3735392b3735392b3735392b3735392b3735392b3735392b373539, 0x2b3735392b3735392b3735392b3735392b3735392b3735392b3735392b373539, 0x2b3735392b3735392b3735392b3735392b3735392b3735392b3735392b373539, 0x2b3735392b3735392b3735392b3735392b3735392b3735392b3735392b373539, 0x2b3735392b3735392b3735392b3735392b3735392b3735392b3735392b373539, 0x2b3735392b3735392b3735392b3735392b3735392b3735392b3735392b373539, 0x2b3735392b3735392b3735392b3735392b3735392b3735392b3735392b373539, 0x2b3735392b3735392b3735392b3735392b3735392b3735392b3735392b373539, 0x2b3735392b3735392b3735392b3735392b3735392b3735392b3735392b373539, 0x2b3735392b3735392b3735392b3735392b3735392b3735392b3735392b373539, 0x2b3735392b3735392b3735392b3735392b3735392b3735392b3735392b373539, 0x33312b313833312b313833312b3735392b3735392b3735392b3735392b373539, 0x313833312b313833312b313833312b313833312b313833312b313833312b3138, 0x312b313833312b313833312b313833312b313833312b313833312b313833312b, 0x3833312b313833312b313833312b313833312b313833312b313833312b313833, 0x2b313833312b313833312b313833312b313833312b313833312b313833312b31, 0x33312b313833312b313833312b313833312b313833312b313833312b31383331, 0x313833312b313833312b313833312b313833312b313833312b313833312b3138, 0x312b313833312b313833312b313833312b313833312b313833312b313833312b, 0x3833312b313833312b313833312b313833312b313833312b313833312b313833, 0x2b313833312b313833312b313833312b313833312b313833312b313833312b31, 0x33312b313833312b313833312b313833312b313833312b313833312b31383331, 0x313833312b313833312b313833312b313833312b313833312b313833312b3138, 0x312b313833312b313833312b313833312b313833312b313833312b313833312b, 0x3833312b313833312b313833312b313833312b313833312b313833312b313833, 0x2b313833312b313833312b313833312b313833312b313833312b313833312b31, 0x33312b313833312b313833312b313833312b313833312b313833312b31383331, 0x313833312b313833312b313833312b313833312b313833312b313833312b3138, 0x312b313833312b313833312b313833312b313833312b313833312b313833312b, 0x3833312b313833312b313833312b313833312b313833312b313833312b313833, 0x2b313833312b313833312b313833312b313833312b313833312b313833312b31, 0x33312b313833312b313833312b313833312b313833312b313833312b31383331, 0x313833312b313833312b313833312b313833312b313833312b313833312b3138, 0x312b313833312b313833312b313833312b313833312b313833312b313833312b, 0x3833312b313833312b313833312b313833312b313833312b313833312b313833, 0x2b353830312b313833312b313833312b313833312b313833312b313833312b31, 0x30312b353830312b353830312b353830312b353830312b353830312b35383031, 0x353830312b353830312b353830312b353830312b353830312b353830312b3538, 0x312b353830312b353830312b353830312b353830312b353830312b353830312b, 0x3830312b353830312b353830312b353830312b353830312b353830312b353830, 0x2b353830312b353830312b353830312b353830312b353830312b353830312b35, 0x30312b353830312b353830312b353830312b353830312b353830312b35383031, 0x353830312b353830312b353830312b353830312b353830312b353830312b3538, 0x312b353830312b353830312b353830312b353830312b353830312b353830312b, 0x3830312b353830312b353830312b353830312b353830312b353830312b353830, 0x2b353830312b353830312b353830312b353830312b353830312b353830312b35, 0x30312b353830312b353830312b353830312b353830312b353830312b35383031, 0x353830312b353830312b353830312b353830312b353830312b353830312b3538, 0x312b353830312b353830312b353830312b353830312b353830312b353830312b, 0x3830312b353830312b353830312b353830312b353830312b353830312b353830, 0x2b353830312b353830312b353830312b353830312b353830312b353830312b35, 0x30312b353830312b353830312b353830312b353830312b353830312b35383031, 0x353830312b353830312b353830312b353830312b353830312b353830312b3538, 0x312b353830312b353830312b353830312b353830312b353830312b353830312b, 0x3830312b353830312b353830312b353830312b353830312b353830312b353830, 0x2b353830312b353830312b353830312b353830312b353830312b353830312b35, 0x30312b353830312b353830312b353830312b353830312b353830312b35383031, 0x353830312b353830312b353830312b353830312b353830312b353830312b3538, 0x312b353830312b353830312b353830312b353830312b353830312b353830312b, 0x3830312b353830312b353830312b353830312b353830312b353830312b353830, 0x33362b3933362b3933362b3933362b3933362b3933362b3933362b3933362b35, 0x33362b3933362b3933362b3933362b3933362b3933362b3933362b3933362b39, 0x33362b3933362b3933362b3933362b3933362b3933362b3933362b3933362b39, 0x33362b3933362b3933362b3933362b3933362b3933362b3933362b3933362b39, 0x33362b3933362b3933362b3933362b3933362b3933362b3933362b3933362b39, 0x33362b3933362b3933362b3933362b3933362b3933362b3933362b3933362b39, 0x33362b3933362b3933362b3933362b3933362b3933362b3933362b3933362b39, 0x33362b3933362b3933362b3933362b3933362b3933362b3933362b3933362b39, 0x33362b3933362b3933362b3933362b3933362b3933362b3933362b3933362b39, 0x33362b3933362b3933362b3933362b3933362b3933362b3933362b3933362b39, 0x33362b3933362b3933362b3933362b3933362b3933362b3933362b3933362b39, 0x33362b3933362b3933362b3933362b3933362b3933362b3933362b3933362b39, 0x33362b3933362b3933362b3933362b3933362b3933362b3933362b3933362b39, 0x33362b3933362b3933362b3933362b3933362b3933362b3933362b3933362b39, 0x33362b3933362b3933362b3933362b3933362b3933362b3933362b3933362b39, 0x33362b3933362b3933362b3933362b3933362b3933362b3933362b3933362b39, 0x33362b3933362b3933362b3933362b3933362b3933362b3933362b3933362b39, 0x33362b3933362b3933362b3933362b3933362b3933362b3933362b3933362b39, 0x33362b3933362b3933362b3933362b3933362b3933362b3933362b3933362b39, 0x30312b3630312b3630312b3630312b3630312b3933362b3933362b3933362b39, 0x30312b3630312b3630312b3630312b3630312b3630312b3630312b3630312b36, 0x30312b3630312b3630312b3630312b3630312b3630312b3630312b3630312b36, 0x30312b3630312b3630312b3630312b3630312b3630312b3630312b3630312b36, 0x30312b3630312b3630312b3630312b3630312b3630312b3630312b3630312b36, 0x30312b3630312b3630312b3630312b3630312b3630312b3630312b3630312b36, 0x30312b3630312b3630312b3630312b3630312b3630312b3630312b3630312b36, 0x30312b3630312b3630312b3630312b3630312b3630312b3630312b3630312b36, 0x30312b3630312b3630312b3630312b3630312b3630312b3630312b3630312b36, 0x30312b3630312b3630312b3630312b3630312b3630312b3630312b3630312b36, 0x30312b3630312b3630312b3630312b3630312b3630312b3630312b3630312b36, 0x30312b3630312b3630312b3630312b3630312b3630312b3630312b3630312b36, 0x30312b3630312b3630312b3630312b3630312b3630312b3630312b3630312b36, 0x30312b3630312b3630312b3630312b3630312b3630312b3630312b3630312b36, 0x30312b3630312b3630312b3630312b3630312b3630312b3630312b3630312b36, 0x30312b3630312b3630312b3630312b3630312b3630312b3630312b3630312b36, 0x30312b3630312b3630312b3630312b3630312b3630312b3630312b3630312b36, 0x30312b3630312b3630312b3630312b3630312b3630312b3630312b3630312b36, 0x30312b3630312b3630312b3630312b3630312b3630312b3630312b3630312b36, 0x312b313332312b3630312b3630312b3630312b3630312b3630312b3630312b36, 0x3332312b313332312b313332312b313332312b313332312b313332312b313332, 0x2b313332312b313332312b313332312b313332312b313332312b313332312b31, 0x32312b313332312b313332312b313332312b313332312b313332312b31333231, 0x313332312b313332312b313332312b313332312b313332312b313332312b3133, 0x312b313332312b313332312b313332312b313332312b313332312b313332312b, 0x3332312b313332312b313332312b313332312b313332312b313332312b313332, 0x2b313332312b313332312b313332312b313332312b313332312b313332312b31, 0x32312b313332312b313332312b313332312b313332312b313332312b31333231, 0x313332312b313332312b313332312b313332312b313332312b313332312b3133, 0x312b313332312b313332312b313332312b313332312b313332312b313332312b, 0x3332312b313332312b313332312b313332312b313332312b313332312b313332, 0x2b313332312b313332312b313332312b313332312b313332312b313332312b31, 0x32312b313332312b313332312b313332312b313332312b313332312b31333231, 0x313332312b313332312b313332312b313332312b313332312b313332312b3133, 0x312b313332312b313332312b313332312b313332312b313332312b313332312b, 0x3332312b313332312b313332312b313332312b313332312b313332312b313332, 0x2b313332312b313332312b313332312b313332312b313332312b313332312b31, 0x32312b313332312b313332312b313332312b313332312b313332312b31333231, 0x313332312b313332312b313332312b313332312b313332312b313332312b3133, 0x312b313332312b313332312b313332312b313332312b313332312b313332312b, 0x3332312b313332312b313332312b313332312b313332312b313332312b313332, 0x2b313332312b313332312b313332312b313332312b313332312b313332312b31, 0x32312b313332312b313332312b313332312b313332312b313332312b31333231, 0x313332312b313332312b313332312b313332312b313332312b313332312b3133, 0x312b313831312b313831312b313831312b313831312b313831312b313831312b, 0x3831312b313831312b313831312b313831312b313831312b313831312b313831, 0x2b313831312b313831312b313831312b313831312b313831312b313831312b31, 0x31312b313831312b313831312b313831312b313831312b313831312b31383131, 0x313831312b313831312b313831312b313831312b313831312b313831312b3138, 0x312b313831312b313831312b313831312b313831312b313831312b313831312b, 0x3831312b313831312b313831312b313831312b313831312b313831312b313831, 0x2b313831312b313831312b313831312b313831312b313831312b313831312b31, 0x31312b313831312b313831312b313831312b313831312b313831312b31383131, 0x313831312b313831312b313831312b313831312b313831312b313831312b3138, 0x312b313831312b313831312b313831312b313831312b313831312b313831312b, 0x3831312b313831312b313831312b313831312b313831312b313831312b313831, 0x2b313831312b313831312b313831312b313831312b313831312b313831312b31, 0x31312b313831312b313831312b313831312b313831312b313831312b31383131, 0x313831312b313831312b313831312b313831312b313831312b313831312b3138, 0x312b313831312b313831312b313831312b313831312b313831312b313831312b, 0x3831312b313831312b313831312b313831312b313831312b313831312b313831, 0x2b313831312b313831312b313831312b313831312b313831312b313831312b31, 0x31312b313831312b313831312b313831312b313831312b313831312b31383131, 0x313831312b313831312b313831312b313831312b313831312b313831312b3138, 0x312b313831312b313831312b313831312b313831312b313831312b313831312b, 0x3831312b313831312b313831312b313831312b313831312b313831312b313831, 0x2b313831312b313831312b313831312b313831312b313831312b313831312b31, 0x31312b313831312b313831312b313831312b313831312b313831312b31383131, 0x2b3336322b3336322b3336322b3735352b3735352b3735352b313831312b3138, 0x30312b353630312b353630312b353230312b353230312b353230312b35323031, 0x323730312b323730312b323730312b323730312b323730312b353630312b3536, 0x3439372b3931312b3931312b3931312b3931312b3931312b3931312b3931312b, 0x313031312b313031312b313031312b313031312b3439372b3439372b3439372b, 0x3637352b3637352b3637352b36392b36392b36392b36392b36392b313031312b, 0x3031312b363031312b363031312b363031312b363031312b3637352b3637352b, 0x312b353131312b3338382b3338382b3338382b3338382b3338382b3338382b36, 0x2b3830352b3830352b353131312b353131312b353131312b353131312b353131, 0x2b3538372b3538372b3538372b3538372b3830352b3830352b3830352b383035, 0x2b3730332b3730332b3730332b3730332b3730332b3538372b3538372b353837, 0x313132312b313132312b313132312b313132312b313132312b3730332b373033, 0x352b3230352b3230352b3230352b3230352b3230352b313132312b313132312b, 0x2b323833312b323833312b323833312b323833312b323833312b3230352b3230, 0x38372b3438372b3438372b3438372b3438372b3438372b323833312b32383331, 0x35322b3835322b3835322b3835322b3835322b3835322b3835322b3438372b34, 0x303633312b3731332b37352b3536372b3036362b31362b38]), ([0x6c6176], [0x373930437830]), ([0x65707974], [0x757165])],
  [([0x6469], [0x30393232]), ([0x656d616e], [0x224c5244415722]), ([0x657a697372646461], [0x6574756c6f736261]), ([0x65706f6373], [0x31]), ([0x666564], [0x363635]), ([0x666572], [0x31312b3437322b39312b3139322b303931312b383030312b3936312b30373031, 0x372b323331312b363831312b33322b3439312b372b3133362b393731312b3337, 0x3338322b3535352b3837]), ([0x6c6176], [0x363930437830]), ([0x65707974], [0x757165])],
  [([0x6469], [0x31393232]), ([0x656d616e], [0x22485244415722]), ([0x657a697372646461], [0x6574756c6f736261]), ([0x65706f6373], [0x31]), ([0x666564], [0x393831]), ([0x666572], [0x37372b3732312b3639342b3235372b3535382b393430312b3138332b353533]), ([0x6c6176], [0x353930437830]), ([0x65707974], [0x757165])],
  [([0x6469], [0x32393232]), ([0x656d616e], [0x2245444f4d5722]), ([0x657a697372646461], [0x6574756c6f736261]), ([0x65706f6373], [0x31]), ([0x666564], [0x38333131]), ([0x666572], [0x3030392b333432]), ([0x6c6176], [0x343930437830]), ([0x65707974], [0x757165])],
  [([0x6469], [0x33393232]), ([0x656d616e], [0x2243414d22]), ([0x657a697372646461], [0x6574756c6f736261]), ([0x657a6973], [0x36]), ([0x65706f6373], [0x31]), ([0x666564], [0x30343231]), ([0x666572], [0x313433]), ([0x6c6176], [0x413030327830]), ([0x676573], [0x36]), ([0x65707974], [0x62616c])],
  [([0x6469], [0x34393232]), ([0x656d616e], [0x2254524f504622]), ([0x657a697372646461], [0x6574756c6f736261]), ([0x657a6973], [0x32]), ([0x65706f6373], [0x31]), ([0x666564], [0x393632]), ([0x666572], [0x3435372b303339]), ([0x6c6176], [0x383030327830]), ([0x676573], [0x36]), ([0x65707974], [0x62616c])],
  [([0x6469], [0x35393232]), ([0x656d616e], [0x22524444414622]), ([0x657a697372646461], [0x6574756c6f736261]), ([0x657a6973], [0x34]), ([0x65706f6373], [0x31]), ([0x666564], [0x303738]), ([0x666572], [0x323138]), ([0x6c6176], [0x343030327830]), ([0x676573], [0x36]), ([0x65707974], [0x62616c])],
  [([0x6469], [0x36393232]), ([0x656d616e], [0x225244444143525322]), ([0x657a697372646461], [0x6574756c6f736261]), ([0x657a6973], [0x34]), ([0x65706f6373], [0x31]), ([0x666564], [0x393436]), ([0x666572], [0x353039]), ([0x6c6176], [0x303030327830]), ([0x676573], [0x36]), ([0x65707974], [0x62616c])],
  [([0x6469], [0x37393232]), ([0x656d616e], [0x226e69616d22]), ([0x657a697372646461], [0x6574756c6f736261]), ([0x657a6973], [0x3533343133]), ([0x65706f6373], [0x30]), ([0x666564], [0x39363231]), ([0x6c6176], [0x303030347830]), ([0x676573], [0x30]), ([0x65707974], [0x62616c])],
  [([0x6469], [0x38393232]), ([0x656d616e], [0x2246464f534944554f4922]), ([0x657a697372646461], [0x6574756c6f736261]), ([0x65706f6373], [0x30]), ([0x666564], [0x363932]), ([0x6c6176], [0x463730437830]), ([0x65707974], [0x62616c])],
  [([0x6469], [0x39393232]), ([0x656d616e], [0x224e4f534944554f4922]), ([0x657a697372646461], [0x6574756c6f736261]), ([0x65706f6373], [0x30]), ([0x666564], [0x393534]), ([0x6c6176], [0x453730437830]), ([0x65707974], [0x62616c])],
  [([0x6469], [0x30303332]), ([0x656d616e], [0x22314e54554222]), ([0x657a697372646461], [0x6574756c6f736261]), ([0x65706f6373], [0x30]), ([0x666564], [0x323532]), ([0x6c6176], [0x323630437830]), ([0x65707974], [0x62616c])],
  [([0x6469], [0x31303332]), ([0x656d616e], [0x22304e54554222]), ([0x657a697372646461], [0x6574756c6f736261]), ([0x65706f6373], [0x30]), ([0x666564], [0x313934]), ([0x6c6176], [0x313630437830]), ([0x65707974], [0x62616c])],
  [([0x6469], [0x32303332]), ([0x656d616e], [0x2246464f53455249484422]), ([0x657a697372646461], [0x6574756c6f736261]), ([0x65706f6373], [0x30]), ([0x666564], [0x37343031]), ([0x6c6176], [0x463530437830]), ([0x65707974], [0x62616c])],
  [([0x6469], [0x33303332]), ([0x656d616e], [0x224e4f53455249484422]), ([0x657a697372646461], [0x6574756c6f736261]), ([0x65706f6373], [0x30]), ([0x666564], [0x383033]), ([0x6c6176], [0x453530437830]), ([0x65707974], [0x62616c])]]

/-- player/iivision.dbg, sym lines 2304-2335 -/
def symLines72 : List (List (List Nat × List Nat)) := [
  [([0x6469], [0x34303332]), ([0x656d616e], [0x22534552494822]), ([0x657a697372646461], [0x6574756c6f736261]), ([0x65706f6373], [0x30]), ([0x666564], [0x32]), ([0x6c6176], [0x373530437830]), ([0x65707974], [0x62616c])],
  [([0x6469], [0x35303332]), ([0x656d616e], [0x225345524f4c22]), ([0x657a697372646461], [0x6574756c6f736261]), ([0x65706f6373], [0x30]), ([0x666564], [0x313035]), ([0x6c6176], [0x363530437830]), ([0x65707974], [0x62616c])],
  [([0x6469], [0x36303332]), ([0x656d616e], [0x22524353494822]), ([0x657a697372646461], [0x6574756c6f736261]), ([0x65706f6373], [0x30]), ([0x666564], [0x353936]), ([0x6c6176], [0x353530437830]), ([0x65707974], [0x62616c])],
  [([0x6469], [0x37303332]), ([0x656d616e], [0x22524353574f4c22]), ([0x657a697372646461], [0x6574756c6f736261]), ([0x65706f6373], [0x30]), ([0x666564], [0x343936]), ([0x6c6176], [0x343530437830]), ([0x65707974], [0x62616c])],
  [([0x6469], [0x38303332]), ([0x656d616e], [0x2254455358494d22]), ([0x657a697372646461], [0x6574756c6f736261]), ([0x65706f6373], [0x30]), ([0x666564], [0x333435]), ([0x6c6176], [0x333530437830]), ([0x65707974], [0x62616c])],
  [([0x6469], [0x39303332]), ([0x656d616e], [0x22524c4358494d22]), ([0x657a697372646461], [0x6574756c6f736261]), ([0x65706f6373], [0x30]), ([0x666564], [0x343433]), ([0x6c6176], [0x323530437830]), ([0x65707974], [0x62616c])],
  [([0x6469], [0x30313332]), ([0x656d616e], [0x2254455354585422]), ([0x657a697372646461], [0x6574756c6f736261]), ([0x65706f6373], [0x30]), ([0x666564], [0x393636]), ([0x6c6176], [0x313530437830]), ([0x65707974], [0x62616c])],
  [([0x6469], [0x31313332]), ([0x656d616e], [0x22524c4354585422]), ([0x657a697372646461], [0x6574756c6f736261]), ([0x65706f6373], [0x30]), ([0x666564], [0x373738]), ([0x6c6176], [0x303530437830]), ([0x65707974], [0x62616c])],
  [([0x6469], [0x32313332]), ([0x656d616e], [0x22314b4e4142434c22]), ([0x657a697372646461], [0x6574756c6f736261]), ([0x65706f6373], [0x30]), ([0x666564], [0x333639]), ([0x6c6176], [0x423830437830]), ([0x65707974], [0x62616c])],
  [([0x6469], [0x33313332]), ([0x656d616e], [0x22324b4e4142434c22]), ([0x657a697372646461], [0x6574756c6f736261]), ([0x65706f6373], [0x30]), ([0x666564], [0x303939]), ([0x6c6176], [0x333830437830]), ([0x65707974], [0x62616c])],
  [([0x6469], [0x34313332]), ([0x656d616e], [0x224e494d4f5222]), ([0x657a697372646461], [0x6574756c6f736261]), ([0x65706f6373], [0x30]), ([0x666564], [0x39393231]), ([0x6c6176], [0x313830437830]), ([0x65707974], [0x62616c])],
  [([0x6469], [0x35313332]), ([0x656d616e], [0x224d4152434c445222]), ([0x657a697372646461], [0x6574756c6f736261]), ([0x65706f6373], [0x30]), ([0x666564], [0x3935]), ([0x6c6176], [0x323130437830]), ([0x65707974], [0x62616c])],
  [([0x6469], [0x36313332]), ([0x656d616e], [0x22324b4e42434c445222]), ([0x657a697372646461], [0x6574756c6f736261]), ([0x65706f6373], [0x30]), ([0x666564], [0x35333131]), ([0x6c6176], [0x313130437830]), ([0x65707974], [0x62616c])],
  [([0x6469], [0x37313332]), ([0x656d616e], [0x2254455352414843544c4122]), ([0x657a697372646461], [0x6574756c6f736261]), ([0x65706f6373], [0x30]), ([0x666564], [0x313337]), ([0x6c6176], [0x453130437830]), ([0x65707974], [0x62616c])],
  [([0x6469], [0x38313332]), ([0x656d616e], [0x2252414843544c4154455322]), ([0x657a697372646461], [0x6574756c6f736261]), ([0x65706f6373], [0x30]), ([0x666564], [0x303139]), ([0x6c6176], [0x463030437830]), ([0x65707974], [0x62616c])],
  [([0x6469], [0x39313332]), ([0x656d616e], [0x2252414843544c41524c4322]), ([0x657a697372646461], [0x6574756c6f736261]), ([0x65706f6373], [0x30]), ([0x666564], [0x393532]), ([0x6c6176], [0x453030437830]), ([0x65707974], [0x62616c])],
  [([0x6469], [0x30323332]), ([0x656d616e], [0x224449563038445222]), ([0x657a697372646461], [0x6574756c6f736261]), ([0x65706f6373], [0x30]), ([0x666564], [0x363939]), ([0x6c6176], [0x463130437830]), ([0x65707974], [0x62616c])],
  [([0x6469], [0x31323332]), ([0x656d616e], [0x224c4f433038445222]), ([0x657a697372646461], [0x6574756c6f736261]), ([0x65706f6373], [0x30]), ([0x666564], [0x373833]), ([0x6c6176], [0x383130437830]), ([0x65707974], [0x62616c])],
  [([0x6469], [0x32323332]), ([0x656d616e], [0x224c4f43303854455322]), ([0x657a697372646461], [0x6574756c6f736261]), ([0x65706f6373], [0x30]), ([0x666564], [0x33393331]), ([0x6c6176], [0x313030437830]), ([0x65707974], [0x62616c])],
  [([0x6469], [0x33323332]), ([0x656d616e], [0x224c4f433038524c4322]), ([0x657a697372646461], [0x6574756c6f736261]), ([0x65706f6373], [0x30]), ([0x666564], [0x363335]), ([0x6c6176], [0x303030437830]), ([0x65707974], [0x62616c])],
  [([0x6469], [0x34323332]), ([0x656d616e], [0x224252545344424b22]), ([0x657a697372646461], [0x6574756c6f736261]), ([0x65706f6373], [0x30]), ([0x666564], [0x36343131]), ([0x6c6176], [0x303130437830]), ([0x65707974], [0x62616c])],
  [([0x6469], [0x35323332]), ([0x656d616e], [0x2244424b22]), ([0x657a697372646461], [0x6574756c6f736261]), ([0x65706f6373], [0x30]), ([0x666564], [0x33313231]), ([0x6c6176], [0x303030437830]), ([0x65707974], [0x62616c])],
  [([0x6469], [0x36323332]), ([0x656d616e], [0x225055444552575022]), ([0x657a697372646461], [0x6574756c6f736261]), ([0x65706f6373], [0x30]), ([0x666564], [0x383639]), ([0x6c6176], [0x3446337830]), ([0x65707974], [0x62616c])],
  [([0x6469], [0x37323332]), ([0x656d616e], [0x22564554464f5322]), ([0x657a697372646461], [0x6574756c6f736261]), ([0x65706f6373], [0x30]), ([0x666564], [0x36343031]), ([0x6c6176], [0x3246337830]), ([0x65707974], [0x62616c])],
  [([0x6469], [0x38323332]), ([0x656d616e], [0x226365564b524222]), ([0x657a697372646461], [0x6574756c6f736261]), ([0x65706f6373], [0x30]), ([0x666564], [0x313431]), ([0x6c6176], [0x3046337830]), ([0x65707974], [0x62616c])],
  [([0x6469], [0x39323332]), ([0x656d616e], [0x224d524157534f4422]), ([0x657a697372646461], [0x6574756c6f736261]), ([0x65706f6373], [0x30]), ([0x666564], [0x323638]), ([0x6c6176], [0x3044337830]), ([0x65707974], [0x62616c])],
  [([0x6469], [0x30333332]), ([0x656d616e], [0x224d454d494822]), ([0x657a697372646461], [0x656761706f72657a]), ([0x65706f6373], [0x30]), ([0x666564], [0x323832]), ([0x6c6176], [0x33377830]), ([0x65707974], [0x62616c])],
  [([0x6469], [0x31333332]), ([0x656d616e], [0x2248444e5222]), ([0x657a697372646461], [0x656761706f72657a]), ([0x65706f6373], [0x30]), ([0x666564], [0x353031]), ([0x6c6176], [0x46347830]), ([0x65707974], [0x62616c])],
  [([0x6469], [0x32333332]), ([0x656d616e], [0x224c444e5222]), ([0x657a697372646461], [0x656761706f72657a]), ([0x65706f6373], [0x30]), ([0x666564], [0x323631]), ([0x6c6176], [0x45347830]), ([0x65707974], [0x62616c])],
  [([0x6469], [0x33333332]), ([0x656d616e], [0x2254504d4f525022]), ([0x657a697372646461], [0x656761706f72657a]), ([0x65706f6373], [0x30]), ([0x666564], [0x303731]), ([0x6c6176], [0x33337830]), ([0x65707974], [0x62616c])],
  [([0x6469], [0x34333332]), ([0x656d616e], [0x22474c46564e4922]), ([0x657a697372646461], [0x656761706f72657a]), ([0x65706f6373], [0x30]), ([0x666564], [0x373836]), ([0x6c6176], [0x32337830]), ([0x65707974], [0x62616c])],
  [([0x6469], [0x35333332]), ([0x656d616e], [0x224853414222]), ([0x657a697372646461], [0x656761706f72657a]), ([0x65706f6373], [0x30]), ([0x666564], [0x303036]), ([0x6c6176], [0x39327830]), ([0x65707974], [0x62616c])]]

/-- player/iivision.dbg, sym lines 2336-2343 -/
def symLines73 : List (List (List Nat × List Nat)) := [
  [([0x6469], [0x36333332]), ([0x656d616e], [0x224c53414222]), ([0x657a697372646461], [0x656761706f72657a]), ([0x65706f6373], [0x30]), ([0x666564], [0x373233]), ([0x6c6176], [0x38327830]), ([0x65707974], [0x62616c])],
  [([0x6469], [0x37333332]), ([0x656d616e], [0x22564322]), ([0x657a697372646461], [0x656761706f72657a]), ([0x65706f6373], [0x30]), ([0x666564], [0x323137]), ([0x6c6176], [0x35327830]), ([0x65707974], [0x62616c])],
  [([0x6469], [0x38333332]), ([0x656d616e], [0x22484322]), ([0x657a697372646461], [0x656761706f72657a]), ([0x65706f6373], [0x30]), ([0x666564], [0x373139]), ([0x6c6176], [0x34327830]), ([0x65707974], [0x62616c])],
  [([0x6469], [0x39333332]), ([0x656d616e], [0x224d5442444e5722]), ([0x657a697372646461], [0x656761706f72657a]), ([0x65706f6373], [0x30]), ([0x666564], [0x313339]), ([0x6c6176], [0x33327830]), ([0x65707974], [0x62616c])],
  [([0x6469], [0x30343332]), ([0x656d616e], [0x22504f54444e5722]), ([0x657a697372646461], [0x656761706f72657a]), ([0x65706f6373], [0x30]), ([0x666564], [0x30333231]), ([0x6c6176], [0x32327830]), ([0x65707974], [0x62616c])],
  [([0x6469], [0x31343332]), ([0x656d616e], [0x2248544457444e5722]), ([0x657a697372646461], [0x656761706f72657a]), ([0x65706f6373], [0x30]), ([0x666564], [0x35323331]), ([0x6c6176], [0x31327830]), ([0x65707974], [0x62616c])],
  [([0x6469], [0x32343332]), ([0x656d616e], [0x2254464c444e5722]), ([0x657a697372646461], [0x656761706f72657a]), ([0x65706f6373], [0x30]), ([0x666564], [0x373733]), ([0x6c6176], [0x30327830]), ([0x65707974], [0x62616c])],
  [([0x6469], [0x33343332]), ([0x656d616e], [0x225f5f32454c5050415f5f22]), ([0x657a697372646461], [0x656761706f72657a]), ([0x65706f6373], [0x30]), ([0x666564], [0x373032]), ([0x6c6176], [0x317830]), ([0x65707974], [0x757165])]]

/-- player/iivision.dbg: all sym lines, in groups. -/
def symLineGroups : List (List (List (List Nat × List Nat))) := [
  symLines0, symLines1, symLines2, symLines3, symLines4, symLines5, symLines6, symLines7, symLines8, symLines9, symLines10, symLines11, symLines12, symLines13, symLines14, symLines15, symLines16, symLines17, symLines18, symLines19, symLines20, symLines21, symLines22, symLines23, symLines24, symLines25, symLines26, symLines27, symLines28, symLines29, symLines30, symLines31, symLines32, symLines33, symLines34, symLines35, symLines36, symLines37, symLines38, symLines39, symLines40, symLines41, symLines42, symLines43, symLines44, symLines45, symLines46, symLines47, symLines48, symLines49, symLines50, symLines51, symLines52, symLines53, symLines54, symLines55, symLines56, symLines57, symLines58, symLines59, symLines60, symLines61, symLines62, symLines63, symLines64, symLines65, symLines66, symLines67, symLines68, symLines69, symLines70, symLines71, symLines72, symLines73]

end IIVision
