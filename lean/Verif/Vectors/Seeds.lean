import Verif.Props.Ed25519

/-!
# The unit-test vectors of seeds and keys, evaluated on the model

Tests of the model, as in `Vectors/Basic.lean`: phrases and keys of sia/src/seed.rs 78-166, and the examples of the standards that the model follows
for what is not in the repository: SHA-256 and SHA-512 (FIPS 180-4), ed25519 (RFC 8032 section 7.1).
-/

namespace Verif

/-- `test_seed_from_entropy` (seed.rs 79-111). -/
def Vectors.phrases : List (List UInt8 × String) :=
  [([23, 154, 249, 239, 129, 81, 216, 147, 144, 163, 207, 136, 238, 88, 11, 253],
    "bleak style know actor budget endorse dream ketchup material index actual wide"),
   ([125, 190, 141, 81, 70, 235, 204, 217, 162, 19, 65, 96, 237, 125, 157, 255],
    "laundry virtual february miss rubber holiday marriage habit genius hip guess yard"),
   ([56, 47, 30, 87, 122, 143, 19, 221, 189, 249, 105, 45, 161, 38, 172, 91],
    "deal jump noise vital van uphold wave coffee color ankle prison repeat"),
   ([68, 205, 7, 92, 32, 16, 228, 222, 144, 102, 94, 12, 179, 15, 67, 251],
    "dynamic habit strike dizzy atom hungry dose slim arrow observe special wash"),
   ([113, 45, 77, 233, 42, 222, 26, 5, 158, 171, 102, 114, 10, 7, 178, 19],
    "illness heavy kid fiber ticket actress kingdom holiday improve expand uncle chest"),
   ([189, 194, 141, 142, 240, 157, 147, 143, 61, 104, 167, 223, 33, 191, 95, 226],
    "saddle behave glove thrive summer shy volcano belt tennis assume subject series"),
   ([156, 21, 48, 230, 15, 181, 230, 46, 105, 106, 91, 163, 205, 77, 45, 150],
    "orchard praise define buyer fury blame pizza enter phrase heavy enter collect"),
   ([14, 38, 59, 189, 192, 248, 53, 60, 139, 36, 93, 58, 42, 156, 174, 238],
    "athlete crack urge limit local oxygen clutch merry demand female close talent"),
   ([141, 252, 20, 155, 232, 12, 56, 225, 252, 11, 92, 219, 9, 189, 23, 179],
    "mistake thing cheap source seminar ill usual high swallow evil echo grid"),
   ([25, 192, 89, 200, 149, 97, 136, 115, 38, 103, 19, 229, 88, 165, 62, 169],
    "border actress impulse client blush define office tiny torch share exile famous"),
   ([255, 43, 106, 70, 38, 84, 73, 72, 184, 0, 154, 228, 158, 156, 171, 32],
    "you forget muscle erosion duty picture theme battle tonight visual client double"),
   ([222, 237, 244, 22, 242, 80, 27, 122, 27, 91, 110, 101, 44, 200, 107, 151],
    "ten hurry aisle tool accuse rug hope horse gown green brain comfort"),
   ([96, 74, 173, 157, 208, 13, 130, 1, 168, 248, 254, 178, 92, 220, 59, 233],
    "gate fever guess parade subway absorb physical cabin rather tragic auction spread"),
   ([176, 115, 232, 168, 178, 206, 187, 177, 117, 105, 82, 1, 211, 62, 184, 132],
    "race palm clay grain two suffer stick clean achieve okay purchase anger"),
   ([162, 226, 161, 55, 247, 115, 251, 40, 6, 205, 151, 77, 203, 35, 63, 198],
    "pepper bench evil upon distance neglect brass real evidence flip soup mind"),
   ([199, 68, 177, 121, 94, 197, 135, 255, 140, 56, 181, 119, 99, 179, 124, 65],
    "shrug cereal furnace rural flash zone couch birth jazz budget tenant lock"),
   ([149, 139, 33, 29, 170, 228, 57, 90, 209, 219, 67, 202, 162, 198, 242, 138],
    "night flip electric fiction drum pulp electric half skirt bike royal benefit"),
   ([32, 138, 79, 90, 166, 241, 239, 197, 108, 63, 107, 211, 140, 3, 80, 129],
    "calm fame stove evil bus tired rail uniform squeeze gas stage acoustic"),
   ([231, 198, 66, 33, 240, 199, 105, 69, 236, 87, 87, 250, 128, 220, 227, 145],
    "treat craft mask thunder isolate pepper rally turtle whisper alone decline card"),
   ([130, 4, 98, 53, 124, 85, 66, 215, 112, 229, 188, 157, 95, 195, 49, 201],
    "link cart minute weather feature hill seminar resource outer wrap small narrow"),
   ([228, 84, 238, 177, 92, 231, 129, 253, 139, 4, 83, 68, 252, 160, 139, 22],
    "tone polar proof right job yard clown media eager topic carpet cluster"),
   ([227, 39, 94, 239, 75, 67, 63, 122, 188, 27, 58, 162, 126, 135, 55, 250],
    "tobacco depend rookie notable crop run vacant guard pen vintage social visual"),
   ([228, 96, 128, 106, 248, 223, 176, 232, 179, 247, 6, 219, 81, 173, 27, 141],
    "tongue advice boy vast wild inmate sound this swap miracle eight bottom"),
   ([204, 38, 228, 251, 95, 106, 131, 62, 103, 254, 162, 86, 97, 48, 254, 222],
    "slow damp disagree salute popular palace paper stairs filter another distance sadness")]

/-- Every seed is written as the phrase of the test. -/
theorem Vectors.phrases_written : Vectors.phrases.all (fun t =>
    if h : t.1.length = 16 then decide (Seed.toMnemonic (english id) ⟨t.1, h⟩ = .ok t.2.toList) else false) = true := by decide +kernel

/-- The phrase of `test_seed_private_key` and `test_seed_public_key` (seed.rs 115, 142) is that of this seed. -/
def Vectors.seed : Arr 16 := ⟨[248, 55, 211, 201, 128, 113, 128, 217, 244, 12, 239, 1, 163, 205, 158, 94], rfl⟩

theorem Vectors.seed_phrase : Seed.toMnemonic (english id) Vectors.seed =
    .ok "wealth salon venue abstract blossom hollow south over accuse bunker guide saddle".toList := by decide +kernel

/-- `Seed::from_mnemonic(PHRASE)`. -/
example (norm : List Char → List Char) (hn : KeepsAscii norm) :
    Seed.fromMnemonic (english norm) "wealth salon venue abstract blossom hollow south over accuse bunker guide saddle".toList = .ok Vectors.seed :=
  (C49_english_phrase norm hn _ _ Vectors.seed_phrase).2

/-- `test_seed_private_key` (seed.rs 114-138); the second halves are the public keys of `test_seed_public_key` (141-165). -/
def Vectors.keys : List (U64 × List UInt8) :=
  [(0,
    [227, 19, 161, 170, 45, 190, 65, 27, 83, 53, 206, 213, 89, 46, 135, 203, 0, 47, 71, 168, 116, 226, 126, 156, 185, 14, 171, 40, 92,
     103, 94, 54, 109, 41, 181, 43, 123, 49, 47, 181, 228, 246, 87, 175, 208, 16, 93, 61, 109, 204, 92, 50, 97, 49, 160, 51, 89, 117,
     1, 210, 86, 18, 120, 159]),
   (1,
    [10, 144, 155, 241, 211, 108, 135, 108, 183, 118, 184, 30, 25, 200, 180, 161, 53, 28, 100, 78, 50, 157, 179, 190, 7, 246, 223,
     206, 89, 183, 95, 77, 63, 165, 60, 254, 166, 118, 59, 7, 204, 66, 2, 160, 186, 54, 87, 77, 153, 250, 108, 163, 248, 7, 219, 255,
     47, 34, 102, 196, 208, 160, 167, 109]),
   (2,
    [134, 107, 64, 166, 238, 17, 122, 184, 230, 94, 224, 119, 44, 164, 228, 99, 233, 142, 219, 240, 121, 59, 234, 224, 138, 120, 71,
     69, 231, 241, 5, 84, 41, 67, 36, 69, 3, 113, 187, 38, 59, 192, 44, 69, 54, 160, 74, 250, 53, 92, 164, 144, 239, 100, 129, 253,
     104, 45, 253, 68, 189, 176, 244, 100]),
   (3,
    [247, 19, 226, 169, 204, 36, 21, 215, 6, 157, 19, 108, 115, 221, 58, 103, 197, 242, 166, 60, 192, 79, 17, 6, 185, 128, 214, 214,
     205, 129, 111, 107, 247, 16, 214, 155, 37, 106, 226, 63, 75, 40, 209, 240, 47, 113, 79, 237, 4, 234, 44, 146, 104, 89, 136, 53,
     113, 62, 236, 54, 105, 123, 241, 121]),
   (4,
    [67, 59, 91, 242, 195, 236, 68, 137, 90, 247, 41, 145, 72, 186, 56, 222, 170, 115, 36, 197, 20, 104, 33, 252, 239, 64, 119, 8,
     171, 194, 17, 188, 177, 43, 42, 72, 9, 119, 255, 220, 76, 56, 1, 117, 43, 14, 43, 238, 6, 33, 147, 17, 183, 189, 206, 128, 24,
     155, 233, 97, 244, 125, 122, 201]),
   (5,
    [72, 164, 118, 94, 206, 77, 126, 107, 18, 244, 248, 178, 12, 170, 202, 75, 34, 73, 101, 74, 218, 43, 157, 13, 49, 216, 85, 81,
     114, 68, 177, 237, 136, 80, 240, 107, 82, 231, 206, 107, 94, 160, 97, 172, 107, 105, 243, 254, 187, 63, 201, 110, 88, 197, 144,
     201, 117, 48, 15, 178, 15, 49, 125, 204]),
   (6,
    [45, 227, 109, 148, 242, 153, 171, 57, 81, 30, 158, 179, 254, 12, 245, 204, 152, 155, 37, 226, 148, 60, 169, 195, 168, 122, 197,
     146, 131, 23, 145, 215, 107, 14, 230, 61, 75, 227, 181, 41, 111, 227, 150, 17, 80, 182, 188, 61, 213, 240, 172, 197, 98, 53, 251,
     138, 98, 20, 58, 126, 183, 59, 218, 167]),
   (7,
    [236, 189, 100, 24, 155, 148, 41, 88, 58, 214, 33, 115, 3, 92, 243, 104, 2, 56, 229, 217, 7, 39, 34, 15, 85, 212, 102, 232, 141,
     198, 49, 183, 2, 153, 203, 210, 183, 119, 223, 14, 98, 9, 159, 63, 95, 145, 54, 146, 208, 34, 163, 250, 171, 212, 97, 162, 147,
     55, 84, 236, 58, 163, 92, 33]),
   (8,
    [94, 131, 100, 88, 252, 203, 32, 77, 254, 14, 48, 12, 102, 202, 44, 71, 173, 126, 254, 159, 131, 92, 218, 153, 209, 163, 207, 34,
     207, 100, 38, 52, 213, 57, 3, 182, 186, 34, 207, 132, 173, 202, 226, 95, 61, 39, 217, 3, 35, 1, 127, 247, 147, 17, 91, 85, 157,
     242, 111, 192, 164, 69, 12, 244]),
   (9,
    [154, 189, 62, 64, 214, 211, 177, 13, 54, 150, 108, 236, 101, 134, 29, 127, 8, 198, 170, 127, 45, 40, 69, 176, 233, 241, 14, 21,
     204, 158, 159, 40, 235, 99, 183, 154, 119, 25, 193, 168, 50, 63, 226, 211, 218, 6, 209, 33, 204, 189, 161, 52, 45, 159, 9, 19,
     134, 15, 94, 8, 23, 175, 19, 144]),
   (4294967295,
    [113, 148, 92, 188, 49, 12, 24, 159, 1, 254, 135, 39, 160, 6, 12, 0, 117, 40, 170, 15, 212, 129, 46, 76, 92, 122, 168, 176, 229,
     24, 144, 111, 199, 220, 245, 231, 98, 49, 82, 227, 16, 237, 68, 11, 138, 191, 2, 224, 47, 190, 173, 69, 85, 63, 19, 179, 232, 167,
     190, 167, 138, 22, 209, 184]),
   (4294967296,
    [65, 96, 35, 33, 102, 108, 123, 169, 59, 5, 114, 146, 8, 137, 125, 223, 137, 148, 10, 253, 240, 44, 56, 235, 189, 136, 240, 164,
     144, 104, 57, 35, 44, 209, 38, 175, 181, 204, 174, 249, 26, 183, 127, 204, 39, 208, 118, 217, 76, 93, 21, 39, 41, 189, 227, 121,
     75, 205, 3, 34, 102, 121, 136, 156]),
   (18446744073709551615,
    [192, 59, 37, 112, 203, 105, 227, 0, 205, 76, 203, 224, 196, 216, 238, 123, 140, 207, 173, 115, 131, 241, 10, 162, 223, 82, 164,
     169, 208, 90, 184, 67, 211, 159, 189, 86, 69, 142, 148, 215, 17, 6, 23, 72, 160, 81, 212, 52, 210, 32, 14, 26, 247, 29, 245, 96,
     112, 210, 223, 8, 131, 69, 59, 44])]

theorem Vectors.keys_derived : Vectors.keys.all (fun t => decide ((Seed.privateKey ed25519 Blake2b.hash Vectors.seed t.1).1 = t.2)) = true := by
  decide +kernel

/-! ## Examples of the standards -/

/-- `"abc"` (FIPS 180-4, examples of the secure hash standard). -/
example : (Sha2.sha256 [97, 98, 99]).1 =
    [186, 120, 22, 191, 143, 1, 207, 234, 65, 65, 64, 222, 93, 174, 34, 35, 176, 3, 97, 163, 150, 23, 122, 156, 180, 16, 255, 97, 242,
     0, 21, 173] := by decide +kernel
example : (Sha2.sha512 [97, 98, 99]).1 =
    [221, 175, 53, 161, 147, 97, 122, 186, 204, 65, 115, 73, 174, 32, 65, 49, 18, 230, 250, 78, 137, 169, 126, 162, 10, 158, 238, 230,
     75, 85, 211, 154, 33, 146, 153, 42, 39, 79, 193, 168, 54, 186, 60, 35, 163, 254, 235, 189, 69, 77, 68, 35, 100, 60, 232, 14, 42,
     154, 201, 79, 165, 76, 164, 159] := by decide +kernel

/-- RFC 8032 section 7.1 test 1: public key and signature. -/
example : (ed25519.expand ⟨[157, 97, 177, 157, 239, 253, 90, 96, 186, 132, 74, 244, 146, 236, 44, 196, 68, 73, 197, 105, 123, 50, 105, 25, 112, 59, 172, 3,
     28, 174, 127, 96], rfl⟩).1 =
    [215, 90, 152, 1, 130, 177, 10, 183, 213, 75, 254, 211, 201, 100, 7, 58, 14, 225, 114, 243, 218, 166, 35, 37, 175, 2, 26, 104,
     247, 7, 81, 26] ∧
    (ed25519.sign ⟨[157, 97, 177, 157, 239, 253, 90, 96, 186, 132, 74, 244, 146, 236, 44, 196, 68, 73, 197, 105, 123, 50, 105, 25, 112, 59, 172, 3,
     28, 174, 127, 96], rfl⟩ []).1 =
    [229, 86, 67, 0, 195, 96, 172, 114, 144, 134, 226, 204, 128, 110, 130, 138, 132, 135, 127, 30, 184, 229, 217, 116, 216, 115, 224,
     101, 34, 73, 1, 85, 95, 184, 130, 21, 144, 163, 59, 172, 198, 30, 57, 112, 28, 249, 180, 107, 210, 91, 245, 240, 89, 91, 190, 36,
     101, 81, 65, 67, 142, 122, 16, 11] := by
  decide +kernel

/-- RFC 8032 section 7.1 test 2: public key and signature. -/
example : (ed25519.expand ⟨[76, 205, 8, 155, 40, 255, 150, 218, 157, 182, 195, 70, 236, 17, 78, 15, 91, 138, 49, 159, 53, 171, 166, 36, 218, 140, 246, 237,
     79, 184, 166, 251], rfl⟩).1 =
    [61, 64, 23, 195, 232, 67, 137, 90, 146, 183, 10, 167, 77, 27, 126, 188, 156, 152, 44, 207, 46, 196, 150, 140, 192, 205, 85, 241,
     42, 244, 102, 12] ∧
    (ed25519.sign ⟨[76, 205, 8, 155, 40, 255, 150, 218, 157, 182, 195, 70, 236, 17, 78, 15, 91, 138, 49, 159, 53, 171, 166, 36, 218, 140, 246, 237,
     79, 184, 166, 251], rfl⟩ [114]).1 =
    [146, 160, 9, 169, 240, 212, 202, 184, 114, 14, 130, 11, 95, 100, 37, 64, 162, 178, 123, 84, 22, 80, 63, 143, 179, 118, 34, 35,
     235, 219, 105, 218, 8, 90, 193, 228, 62, 21, 153, 110, 69, 143, 54, 19, 208, 241, 29, 140, 56, 123, 46, 174, 180, 48, 42, 238,
     176, 13, 41, 22, 18, 187, 12, 0] := by
  decide +kernel

/-- RFC 8032 section 7.1 test 3: public key and signature. -/
example : (ed25519.expand ⟨[197, 170, 141, 244, 63, 159, 131, 123, 237, 183, 68, 47, 49, 220, 183, 177, 102, 211, 133, 53, 7, 111, 9, 75, 133, 206, 58, 46,
     11, 68, 88, 247], rfl⟩).1 =
    [252, 81, 205, 142, 98, 24, 161, 163, 141, 164, 126, 208, 2, 48, 240, 88, 8, 22, 237, 19, 186, 51, 3, 172, 93, 235, 145, 21, 72,
     144, 128, 37] ∧
    (ed25519.sign ⟨[197, 170, 141, 244, 63, 159, 131, 123, 237, 183, 68, 47, 49, 220, 183, 177, 102, 211, 133, 53, 7, 111, 9, 75, 133, 206, 58, 46,
     11, 68, 88, 247], rfl⟩ [175, 130]).1 =
    [98, 145, 214, 87, 222, 236, 36, 2, 72, 39, 230, 156, 58, 190, 1, 163, 12, 229, 72, 162, 132, 116, 58, 68, 94, 54, 128, 215, 219,
     90, 195, 172, 24, 255, 155, 83, 141, 22, 242, 144, 174, 103, 247, 96, 152, 77, 198, 89, 74, 124, 21, 233, 113, 110, 210, 141, 192,
     39, 190, 206, 234, 30, 196, 10] := by
  decide +kernel

end Verif
