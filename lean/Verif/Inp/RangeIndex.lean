import Verif.Inp.RangeLemmas
import Verif.Inp.RangeTable
/-!
# Where the attributes with a test are listed

For each class, in the order of `Tab.classes`, and each of its attributes with a test: the list (numbers, texts, needed, linked) and the row.  Used
only to find the rows quickly; `placedAt` checks that they are the right ones.
-/
set_option maxRecDepth 100000
namespace Inp
open Py Types

/-- The attributes whose test depends on other attributes, and the lists of temperatures. -/
def linkedAttrs : List (Cls × String) :=
  [(Tab.ssr_Bcw, "ze"), (Tab.mplot_Xlims, "upper"), (Tab.mplot_Ylims, "upper"), (Tab.cell_Tmp, "temperature"), (Tab.like_Tmp, "temperature"),
   (Tab.Cell, "density"), (Tab.Kcode, "msrk"), (Tab.Surface, "number"),
   (Tab.surface_P_1, "x1"), (Tab.surface_P_1, "y1"), (Tab.surface_P_1, "z1"), (Tab.surface_P_1, "x2"), (Tab.surface_P_1, "y2"), (Tab.surface_P_1, "z2"),
   (Tab.surface_P_1, "x3"), (Tab.surface_P_1, "y3"), (Tab.surface_P_1, "z3")]

def inNumbers (c : Cls) (n : String) (r : NumRow) : Bool := r.cls.info == c.info && r.attr == n
def inTexts (c : Cls) (n : String) (r : TextRow) : Bool := r.cls.info == c.info && r.attr == n
def inNeeded (c : Cls) (n : String) (r : NeedRow) : Bool := r.cls.info == c.info && r.attrs.contains n
def inLinked (c : Cls) (n : String) (p : Cls × String) : Bool := p.1.info == c.info && p.2 == n

/-- The attribute is in one of the lists. -/
def listed (c : Cls) (n : String) : Bool :=
  Ranges.numbers.any (inNumbers c n) || Ranges.texts.any (inTexts c n) || Ranges.needed.any (inNeeded c n) || linkedAttrs.any (inLinked c n)

/-- The row at this place is about the attribute. -/
def atPlace (c : Cls) (n : String) : Nat × Nat → Bool
  | (0, k) => (Ranges.numbers[k]?).any (inNumbers c n)
  | (1, k) => (Ranges.texts[k]?).any (inTexts c n)
  | (2, k) => (Ranges.needed[k]?).any (inNeeded c n)
  | (_, k) => (linkedAttrs[k]?).any (inLinked c n)

theorem any_get {α : Type} {l : List α} {k : Nat} {p : α → Bool} (h : (l[k]?).any p = true) : l.any p = true := by
  cases hk : l[k]? with
  | none => rw [hk] at h; cases h
  | some x => rw [hk] at h; exact List.any_eq_true.2 ⟨x, List.mem_of_getElem? hk, h⟩

theorem at_listed {c : Cls} {n : String} {p : Nat × Nat} (h : atPlace c n p = true) : listed c n = true := by
  unfold listed
  simp only [Bool.or_eq_true]
  unfold atPlace at h
  split at h
  · exact .inl (.inl (.inl (any_get h)))
  · exact .inl (.inl (.inr (any_get h)))
  · exact .inl (.inr (any_get h))
  · exact .inr (any_get h)

def placedAt (c : Cls) : List Attr → List (Nat × Nat) → Bool
  | [], _ => true
  | a :: as, ps =>
    match a.chk, ps with
    | none, ps => placedAt c as ps
    | some _, p :: ps => atPlace c a.name p && placedAt c as ps
    | some _, [] => false

theorem placedAt_listed {c : Cls} : ∀ {as : List Attr} {ps : List (Nat × Nat)}, placedAt c as ps = true → ∀ a ∈ as, a.chk = none ∨ listed c a.name = true
  | a :: as, ps, h, b, hb => by
    unfold placedAt at h
    split at h
    · rename_i hc
      rcases List.mem_cons.1 hb with rfl | hb
      · exact .inl hc
      · exact placedAt_listed h b hb
    · rw [Bool.and_eq_true] at h
      rcases List.mem_cons.1 hb with rfl | hb
      · exact .inr (at_listed h.1)
      · exact placedAt_listed h.2 b hb
    · cases h

def allPlaced : List Cls → List (List (Nat × Nat)) → Bool
  | [], _ => true
  | c :: cs, p :: ps => placedAt c c.attrs p && allPlaced cs ps
  | _ :: _, [] => false

theorem all_listed : ∀ {cs : List Cls} {ps : List (List (Nat × Nat))}, allPlaced cs ps = true → ∀ c ∈ cs, ∀ a ∈ c.attrs, a.chk = none ∨ listed c a.name = true
  | c :: cs, p :: ps, h, d, hd => by
    unfold allPlaced at h
    rw [Bool.and_eq_true] at h
    rcases List.mem_cons.1 hd with rfl | hd
    · exact placedAt_listed h.1
    · exact all_listed h.2 d hd

def places0 : List (List (Nat × Nat)) := [
  [(1, 43)], [(1, 44)], [(1, 42)], [(1, 41)], [(0, 155)], [(0, 153)], [(0, 154)], [(2, 112), (2, 112)], [(2, 109)], [(2, 112), (2, 112)],
  [(2, 108)], [(2, 111)], [(2, 110)], [(1, 45)], [(2, 116)], [(2, 120)], [(2, 117)], [(2, 118)], [(2, 114)], [(2, 115)], [(2, 119)], [(2,
  168), (2, 168)], [(0, 211)], [(0, 209)], [(0, 210)], [], [], [(2, 169), (2, 169)], [(2, 169), (2, 169)], [(2, 171), (2, 171), (2, 171),
  (2, 171), (2, 171)], [(0, 212)], [(0, 214), (0, 215)], [(2, 173)], [(1, 64)], [(2, 177)], [(2, 176)], [(2, 175)], [(1, 61)], [(1, 62)],
  [(1, 63)], [(2, 172)], [(0, 213)], [(2, 174)], [(0, 216)], [(0, 217)], [(0, 219)], [(1, 65)], [(2, 178)], [(2, 179)], [(0, 218)], [(1,
  66)], [(2, 180), (2, 180), (2, 180), (2, 180)], [(2, 181), (2, 181), (2, 181)], [(2, 182), (2, 182), (1, 67), (1, 68)], [(1, 70)], [(2,
  195), (2, 195), (2, 195)], [(2, 183), (2, 183), (2, 183)], [(2, 198), (2, 198), (2, 198)], [(2, 188)], [(2, 187)], [(2, 191)], [(2, 190)],
  [(2, 194)], [(2, 193)], [(2, 185)], [(2, 184)], [(1, 69)], [(2, 197)], [(2, 196)], [(1, 72)], [(2, 186)], [(1, 71)], [(0, 220)], [(2,
  189)], [(1, 73)], [(2, 192)], [(2, 199)], [(2, 202)], [(2, 200)], [(2, 201), (2, 201)], [(0, 222)], [(0, 221)], [(0, 223)], [(0, 224)],
  [(1, 77)], [(1, 79)], [(1, 78)], [(1, 74)], [(2, 207)], [(2, 203)]]
def places1 : List (List (Nat × Nat)) := [
  [(2, 208)], [(1, 75)], [(1, 76)], [(2, 204)], [(2, 205)], [(2, 206)], [(2, 209)], [(2, 212)], [(2, 213)], [(2, 211)], [(2, 214)], [(2,
  210)], [(1, 80)], [(2, 211)], [(2, 214)], [(2, 220)], [(2, 210)], [(2, 216)], [(2, 219)], [(2, 215)], [(1, 81)], [(2, 222), (2, 222), (2,
  222)], [(1, 95)], [(0, 245)], [(0, 246)], [(2, 244)], [(2, 245)], [(2, 246)], [(2, 242)], [(2, 243)], [(2, 239)], [(2, 250)], [(2, 251)],
  [(2, 241)], [(2, 240)], [(2, 248)], [(2, 247)], [(2, 249)], [(1, 70)], [(2, 260)], [(2, 259)], [(2, 114)], [(2, 120)], [(2, 254)], [(2,
  253)], [(2, 256)], [(2, 255)], [(2, 258)], [(2, 257)], [(2, 209)], [(0, 237)], [(2, 231)], [(0, 222)], [(2, 286), (2, 286)], [(2, 214)],
  [(2, 289), (2, 289)], [(0, 255)], [(1, 112)], [(0, 256)], [(0, 257)], [(1, 113)], [(1, 111)], [(2, 291)], [(2, 298), (2, 298)], [(2,
  292)], [(2, 296)], [(2, 293)], [(2, 209)], [(2, 294)], [(2, 295)], [(2, 297)], [(0, 258)], [(0, 259)], [(2, 300)], [(2, 299)], [(2, 383)],
  [(2, 380)], [(2, 382)], [(2, 385)], [(0, 271)], [(2, 388)], [(2, 338)], [(2, 339)], [(0, 272)], [(2, 378)], [(2, 381)], [(2, 384)], [(2,
  379), (0, 270), (3, 0)], [(0, 273)], [(2, 390)]]
def places2 : List (List (Nat × Nat)) := [
  [(2, 389)], [(2, 393)], [(2, 391)], [(0, 274), (2, 392)], [(2, 433)], [(2, 435)], [(2, 436)], [(2, 437)], [(2, 438)], [(2, 434)], [(1,
  115)], [(1, 114)], [(1, 117)], [(1, 116)], [], [(0, 275), (2, 439), (2, 439), (2, 439)], [(1, 118)], [(2, 136)], [(2, 137)], [(2, 159)],
  [(2, 154)], [(2, 160)], [(2, 158)], [(0, 187)], [(0, 185)], [(0, 199)], [(0, 192)], [(0, 194)], [(0, 196)], [(0, 191)], [(0, 195)], [(0,
  198)], [(0, 193)], [(0, 190)], [(2, 155)], [(2, 156)], [(2, 146)], [(2, 157)], [(0, 180)], [(2, 162)], [(0, 186)], [(2, 153)], [(0, 188)],
  [(1, 60)], [(2, 150)], [(2, 151)], [(2, 152)], [(2, 147)], [(2, 149)], [(2, 148)], [(2, 145)], [(2, 163)], [(0, 197)], [(1, 59)], [(2,
  144)], [(2, 167)], [(2, 165)], [(2, 166)], [(2, 164)], [(0, 200)], [(2, 161)], [(0, 207)], [(0, 183)], [(0, 206)], [(0, 177)], [(0, 179)],
  [(0, 202)], [(0, 203)], [(0, 178)], [(2, 141)], [(2, 142)], [(2, 139)], [(2, 143)], [(2, 140)], [(2, 138)], [(0, 189)], [(0, 201)], [(0,
  208)], [(0, 204)], [(0, 205)], [(0, 182)], [(0, 181)], [(0, 176)], [(0, 184)], [(0, 175)], [(0, 249)], [(1, 98)], [], [(2, 268)], []]
def places3 : List (List (Nat × Nat)) := [
  [], [], [], [], [], [], [], [], [], [(2, 272)], [], [(2, 279)], [(2, 271)], [], [], [], [], [(1, 97), (2, 264)], [(1, 103)], [(0, 250),
  (1, 105)], [], [(2, 274), (2, 274), (1, 104)], [(1, 108)], [(1, 109)], [(1, 110)], [(1, 102)], [], [], [(1, 100), (1, 101)], [(1, 99), (2,
  265)], [(2, 273), (2, 273), (2, 273), (2, 273), (2, 273), (2, 273), (2, 273), (2, 273)], [(2, 277)], [(0, 247)], [(2, 281)], [(2, 282)],
  [(1, 107)], [(2, 269)], [(2, 270)], [], [], [], [], [(2, 280), (3, 1), (0, 251)], [(2, 283), (3, 2), (0, 252)], [(0, 248)], [], [], [],
  [], [], [(2, 278)], [], [], [], [], [], [], [], [], [], [], [], [(2, 262), (2, 262), (2, 262)], [(1, 106)], [(2, 266)], [(2, 267)], [(2,
  284)], [(2, 263)], [(2, 276)], [], [(2, 275)], [(2, 301)], [(2, 359)], [(2, 370)], [(2, 363)], [(2, 371)], [(2, 361)], [(2, 373)], [(2,
  366)], [(2, 368)], [(2, 369)], [(2, 364)], [(2, 355)], [(2, 375)], [(2, 376)], [(2, 377)], [(2, 358)], [(2, 354)], [(2, 374)], [(2, 372)]]
def places4 : List (List (Nat × Nat)) := [
  [(2, 362)], [(2, 367)], [(2, 360)], [(2, 365)], [(2, 357)], [(2, 356)], [(2, 302)], [(2, 303), (2, 303), (2, 303)], [(2, 304)], [(2, 305),
  (2, 305), (2, 305)], [(2, 306)], [(2, 307), (2, 307), (0, 260)], [(2, 308)], [(0, 261)], [(2, 309)], [(0, 262)], [(2, 310)], [(2, 311)],
  [(0, 263), (0, 264), (0, 265)], [(2, 312)], [(2, 313)], [(2, 314)], [], [(2, 315)], [(2, 316)], [(2, 317)], [(2, 318)], [(2, 319)], [(2,
  320)], [(2, 321)], [(2, 322)], [(0, 266), (0, 267), (0, 268)], [(2, 323)], [(2, 324)], [(2, 325)], [(2, 326)], [(2, 327)], [(2, 328), (2,
  328), (2, 328)], [(2, 329)], [(2, 330)], [(2, 331)], [(2, 332)], [(2, 333)], [(0, 269)], [(2, 334)], [(2, 335)], [(2, 336)], [(2, 337)],
  [(2, 338)], [(2, 339)], [(2, 340)], [(2, 341), (2, 341), (2, 341)], [(2, 342)], [(2, 343)], [(2, 344)], [(2, 345)], [(2, 346)], [(2,
  347)], [(2, 348)], [(2, 349)], [(2, 350)], [(2, 351)], [(2, 352)], [(2, 353)], [(2, 126), (2, 126)], [(0, 173)], [(2, 128)], [(2, 123),
  (2, 123)], [(2, 124), (0, 159)], [(2, 135), (2, 135), (0, 174)], [(2, 121), (2, 121), (0, 158)], [(0, 168)], [(2, 127), (0, 169)], [(0,
  171)], [(1, 54), (2, 129)], [(1, 55), (2, 130)], [(1, 56), (2, 131)], [(1, 57), (2, 132)], [(1, 58), (2, 133)], [(1, 53), (0, 170)], [(0,
  167)], [(1, 46), (2, 125), (2, 125), (2, 125), (2, 125)], [(1, 47), (0, 160)], [(1, 48), (0, 161)], [(1, 49), (0, 162)], [(1, 50), (0,
  163)], [(1, 51), (0, 164)], [(1, 52), (0, 165), (0, 166)], [(2, 122), (2, 122)], [(3, 3)]]
def places5 : List (List (Nat × Nat)) := [
  [(0, 157)], [(0, 156)], [(2, 134), (0, 172)], [(2, 126), (2, 126)], [(0, 173)], [(2, 128)], [(2, 123), (2, 123)], [(2, 124), (0, 159)],
  [(2, 135), (2, 135), (0, 174)], [(2, 121), (2, 121), (0, 158)], [(0, 168)], [(2, 127), (0, 169)], [(0, 171)], [(1, 54), (2, 129)], [(1,
  55), (2, 130)], [(1, 56), (2, 131)], [(1, 57), (2, 132)], [(1, 58), (2, 133)], [(1, 53), (0, 170)], [(0, 167)], [(0, 237)], [(1, 46), (2,
  125), (2, 125), (2, 125), (2, 125)], [(1, 47), (0, 160)], [(1, 48), (0, 161)], [(1, 49), (0, 162)], [(1, 50), (0, 163)], [(1, 51), (0,
  164)], [(1, 52), (0, 165), (0, 166)], [(2, 122), (2, 122)], [(2, 231)], [(3, 3)], [(0, 157)], [(0, 156)], [(2, 134), (0, 172)], [(2, 410),
  (2, 410), (2, 410), (2, 410)], [(3, 8), (3, 9), (3, 10), (3, 11), (3, 12), (3, 13), (3, 14), (3, 15), (3, 16)], [(2, 411)], [(2, 412)],
  [(2, 413)], [(2, 419)], [(2, 418), (2, 418), (2, 418), (2, 418)], [(2, 422), (2, 422)], [(2, 423), (2, 423)], [(2, 424), (2, 424)], [(2,
  396), (2, 396), (2, 396)], [(2, 397), (2, 397), (2, 397)], [(2, 398), (2, 398), (2, 398)], [(2, 399)], [(2, 400)], [(2, 401)], [(2, 404),
  (2, 404), (2, 404), (2, 404), (2, 404)], [(2, 405), (2, 405), (2, 405), (2, 405), (2, 405)], [(2, 406), (2, 406), (2, 406), (2, 406), (2,
  406)], [(2, 407), (2, 407), (2, 407)], [(2, 408), (2, 408), (2, 408)], [(2, 409), (2, 409), (2, 409)], [(2, 421), (2, 421), (2, 421), (2,
  421), (2, 421), (2, 421), (2, 421), (2, 421), (2, 421), (2, 421)], [(2, 403), (2, 403), (2, 403), (2, 403), (2, 403), (2, 403), (2, 403),
  (2, 403), (2, 403), (2, 403)], [(2, 426), (2, 426), (2, 426), (2, 426), (2, 426), (2, 426)], [(2, 427), (2, 427), (2, 427), (2, 427), (2,
  427), (2, 427)], [(2, 428), (2, 428), (2, 428), (2, 428), (2, 428), (2, 428)], [(2, 430), (2, 430)], [(2, 431), (2, 431)], [(2, 432), (2,
  432)], [(2, 395), (2, 395), (2, 395), (2, 395), (2, 395), (2, 395), (2, 395), (2, 395), (2, 395), (2, 395), (2, 395), (2, 395)], [(2,
  417), (2, 417), (2, 417), (2, 417)], [(2, 420), (2, 420), (2, 420), (2, 420)], [(2, 414), (2, 414), (2, 414), (2, 414), (2, 414), (2,
  414), (2, 414)], [(2, 416), (2, 416), (2, 416), (2, 416), (2, 416), (2, 416), (2, 416), (2, 416), (2, 416)], [(2, 415), (2, 415), (2,
  415), (2, 415), (2, 415), (2, 415), (2, 415), (2, 415), (2, 415), (2, 415)], [(2, 425), (2, 425), (2, 425), (2, 425), (2, 425), (2, 425),
  (2, 425), (2, 425)], [(2, 402), (2, 402), (2, 402), (2, 402), (2, 402), (2, 402), (2, 402)], [(2, 429), (2, 429), (2, 429), (2, 429), (2,
  429), (2, 429), (2, 429), (2, 429), (2, 429), (2, 429), (2, 429), (2, 429)], [(2, 394), (2, 394), (2, 394), (2, 394), (2, 394), (2, 394),
  (2, 394), (2, 394), (2, 394), (2, 394), (2, 394), (2, 394), (2, 394), (2, 394), (2, 394), (2, 394), (2, 394), (2, 394), (2, 394), (2,
  394), (2, 394), (2, 394), (2, 394), (2, 394), (2, 394), (2, 394), (2, 394), (2, 394), (2, 394), (2, 394)], [], [(2, 0)], [(2, 1)], [(2,
  2), (2, 2), (2, 2), (2, 2), (2, 2), (2, 2), (2, 2), (2, 2), (2, 2), (2, 2), (2, 2), (2, 2), (2, 2), (2, 2), (2, 2), (2, 2), (2, 2), (2,
  2), (2, 2), (2, 2), (2, 2), (2, 2), (2, 2), (2, 2), (2, 2), (2, 2), (2, 2), (2, 2), (2, 2), (2, 2), (2, 2), (2, 2), (2, 2), (2, 2), (2,
  2), (2, 2), (2, 2), (2, 2), (2, 2), (2, 2), (2, 2), (2, 2), (2, 2), (2, 2), (2, 2), (2, 2), (2, 2), (2, 2), (2, 2), (2, 2)], [(2, 3)],
  [(2, 4), (1, 0)], [(1, 1), (2, 5), (2, 5)], [(0, 0), (0, 1), (3, 5), (2, 6)], [(0, 2), (2, 7)], [(0, 3), (2, 8)], [], [(2, 9)], [(2, 10),
  (0, 4), (0, 5), (2, 10)], [(0, 6)], [(2, 11)], []]
def places6 : List (List (Nat × Nat)) := [
  [(0, 7), (0, 8)], [(2, 12)], [(0, 9), (1, 2), (2, 13)], [(0, 10), (1, 3), (2, 14)], [(0, 11), (2, 15)], [(2, 16), (2, 16)], [], [(0, 12),
  (1, 4), (2, 17)], [(0, 13), (2, 18)], [(0, 14), (2, 19)], [(0, 15), (2, 20)], [(0, 16), (2, 21), (2, 21)], [(2, 22), (2, 22), (2, 22), (2,
  22), (2, 22), (2, 22), (2, 22), (2, 22), (2, 22), (2, 22), (2, 22), (2, 22), (2, 22), (2, 22)], [(2, 23), (2, 23)], [(2, 24)], [(0, 17),
  (2, 25)], [(2, 26), (2, 26)], [(2, 27), (2, 27)], [(2, 28), (2, 28)], [(2, 29)], [(2, 30), (2, 30)], [(2, 31), (2, 31)], [(2, 32), (2,
  32)], [(2, 33), (2, 33)], [(2, 34)], [(2, 35), (2, 35)], [(1, 5), (0, 18), (2, 36), (1, 6)], [(1, 7), (0, 19), (2, 37), (1, 8)], [(1, 9),
  (0, 20), (1, 10), (2, 38), (1, 11)], [(1, 12), (0, 21), (2, 39)], [(1, 13), (0, 22), (2, 40), (1, 14)], [(0, 23), (2, 41)], [(2, 42), (2,
  42)], [(0, 24), (2, 43), (2, 43), (2, 43), (2, 43), (0, 25), (2, 43), (2, 43), (2, 43), (0, 26), (0, 27), (0, 28)], [(2, 44)], [(2, 45)],
  [(0, 29), (2, 46), (2, 46), (2, 46), (2, 46), (0, 30), (2, 46), (2, 46), (2, 46), (0, 31), (0, 32), (0, 33)], [(0, 34), (2, 47), (2, 47),
  (2, 47), (0, 35), (2, 47), (2, 47), (2, 47), (0, 36), (2, 47), (0, 37)], [(1, 15), (0, 38), (2, 48)], [(0, 39), (2, 49)], [(2, 50)], [(0,
  40), (1, 16), (1, 17), (1, 18), (1, 19), (1, 20), (1, 21), (1, 22), (1, 23)], [(0, 41), (2, 51), (1, 24), (1, 25)], [(0, 42), (2, 52)],
  [(0, 43), (2, 53), (1, 26), (1, 27)], [], [(0, 44), (2, 54), (2, 54), (0, 45), (2, 54), (2, 54), (0, 46), (2, 54), (2, 54)], [(2, 55)],
  [(2, 56), (2, 56)], [(0, 47), (0, 48), (3, 6), (0, 49), (0, 50), (0, 51)], [], [(0, 52)], [(0, 53), (2, 57)], [(2, 58)], [(2, 59)], [(0,
  54), (0, 55), (0, 56), (0, 57), (0, 58), (0, 59), (0, 60), (0, 61), (0, 62)], [], [(0, 63), (0, 64)], [(0, 65), (0, 66), (0, 67), (0, 68),
  (0, 69), (0, 70), (0, 71), (0, 72)], [(0, 73), (0, 74), (0, 75), (0, 76)], [(0, 77), (0, 78)], [(0, 79), (0, 80)], [(2, 60), (2, 60)],
  [(2, 61), (2, 61)], [], [(1, 28), (0, 81), (0, 82), (0, 83)], [(2, 62)], [(1, 29)], [], [(2, 63), (2, 63)], [(2, 64), (2, 64), (2, 64)],
  [], [], [(0, 84), (0, 85)], [(2, 65)], [(0, 86), (2, 66), (2, 66)], [(0, 87), (2, 67)], [(0, 88), (0, 89), (0, 90), (0, 91)], [(0, 92),
  (0, 93), (0, 94), (0, 95)], [(0, 96), (0, 97), (0, 98), (0, 99), (0, 100), (0, 101), (0, 102), (0, 103), (0, 104), (1, 30), (0, 105), (0,
  106)], [(0, 107), (0, 108), (0, 109), (0, 110), (0, 111), (0, 112), (0, 113), (0, 114), (0, 115)], [(2, 68), (0, 116), (0, 117), (0, 118),
  (0, 119), (0, 120), (0, 121), (0, 122), (0, 123)], [(2, 69)], [], [], [], [(2, 70)], [], [(2, 71)], [(0, 124), (1, 31), (2, 72)]]
def places7 : List (List (Nat × Nat)) := [
  [(0, 125), (2, 73)], [(0, 126), (2, 74)], [(0, 127), (2, 75)], [], [(0, 128), (2, 76)], [(2, 77), (2, 77)], [(2, 78), (2, 78)], [(2, 79),
  (2, 79)], [(0, 129), (1, 32), (2, 80)], [(0, 130), (2, 81)], [(2, 82)], [], [(2, 83)], [], [(1, 33), (3, 7), (0, 131), (2, 84)], [(2, 85),
  (2, 85)], [(2, 86), (2, 86)], [], [(0, 132)], [(0, 133)], [(2, 87)], [(0, 134), (2, 88)], [(2, 89)], [(1, 34)], [(1, 35), (0, 135), (2,
  90), (2, 90), (2, 90), (2, 90), (2, 90), (2, 90), (2, 90), (2, 90), (2, 90), (2, 90), (2, 90), (2, 90), (0, 136)], [(1, 36), (0, 137), (2,
  91), (2, 91), (2, 91), (2, 91), (2, 91), (2, 91), (2, 91), (2, 91), (2, 91), (0, 138)], [(1, 37), (0, 139), (2, 92), (2, 92), (2, 92), (2,
  92), (2, 92), (2, 92), (2, 92), (2, 92), (0, 140)], [(1, 38), (0, 141), (2, 93), (2, 93), (2, 93), (2, 93), (2, 93), (2, 93), (0, 142)],
  [(1, 39), (0, 143), (2, 94), (2, 94), (2, 94), (0, 144)], [], [(2, 95)], [(2, 96)], [(2, 97), (2, 97)], [(2, 98)], [], [], [(1, 40), (2,
  99)], [(2, 100), (2, 100)], [(0, 145), (0, 146), (2, 101)], [(2, 102), (2, 102)], [(2, 103), (2, 103)], [(0, 147), (2, 104), (2, 104)],
  [(2, 105), (0, 148), (0, 149), (0, 150), (0, 151), (0, 152)], [(2, 106), (2, 106)], [(2, 107), (2, 107)], [], [], [], []]
/-- The places of all classes. -/
def places : List (List (Nat × Nat)) := places0 ++ places1 ++ places2 ++ places3 ++ places4 ++ places5 ++ places6 ++ places7

theorem places_right : allPlaced Tab.classes places = true := by decide +kernel

end Inp
