import Verif.Model.NuclearTable

/-!
# Reading the text of `data/Nuclear_Data.txt`

`Import_Nuclear_Data` reads its file with the formatted input of the standard library, `f >> name >> Z >> A >> abund >> spin >> sp >> sn`
(`src/Target_Nucleus.cpp:150`). This is a model of that input in the default locale, as libstdc++ implements it: leading white space is
skipped, a word ends at white space, a number takes the longest run of characters that can belong to it, and a number that cannot be
converted sets the fail bit, which ends the loop. Simplification: decimal numbers are exact, so that neither rounding nor the overflow of a
`double` occurs.
-/

namespace Obscura.NuclearText

/-- `std::isspace` in the default locale, used by `operator>>` in `src/Target_Nucleus.cpp:150`. -/
def isSpace (c : Char) : Bool := c == ' ' || (9 ≤ c.toNat && c.toNat ≤ 13)

/-- A decimal digit, for `operator>>` in `src/Target_Nucleus.cpp:150`. -/
def isDigit (c : Char) : Bool := 48 ≤ c.toNat && c.toNat ≤ 57

/-- The white space skipped before every item, `src/Target_Nucleus.cpp:150`. -/
def skipSpace (s : List Char) : List Char := s.dropWhile isSpace

/-- `f >> name`, `src/Target_Nucleus.cpp:150`; `none` is a stream with the fail bit set. -/
def readWord (s : List Char) : Option (List Char × List Char) :=
  let s := skipSpace s
  let w := s.takeWhile (!isSpace ·)
  if w = [] then none else some (w, s.dropWhile (!isSpace ·))

/-- The number written by decimal digits. Part of `>>` in `src/Target_Nucleus.cpp:150`. -/
def natOf (ds : List Char) : ℕ := ds.foldl (fun n c => 10 * n + (c.toNat - 48)) 0

/-- An optional sign: whether it is a minus, and the rest. Part of `>>` in `src/Target_Nucleus.cpp:150`. -/
def readSign : List Char → Bool × List Char
  | '-' :: s => (true, s)
  | '+' :: s => (false, s)
  | s => (false, s)

/-- The sign put on a number. Part of `>>` in `src/Target_Nucleus.cpp:150`. -/
def signed (neg : Bool) (n : ℤ) : ℤ := if neg then -n else n

/-- An optional sign and at least one digit. Part of `>>` in `src/Target_Nucleus.cpp:150`. -/
def readDigits (s : List Char) : Option (ℤ × List Char) :=
  let (neg, s) := readSign s
  let ds := s.takeWhile isDigit
  if ds = [] then none else some (signed neg (natOf ds), s.dropWhile isDigit)

/-- `f >> Z` and `f >> A` for an `int` of 32 bits, `src/Target_Nucleus.cpp:150`; a value out of range sets the fail bit. -/
def readInt (s : List Char) : Option (ℤ × List Char) :=
  match readDigits (skipSpace s) with
  | none => none
  | some (n, s) => if -2 ^ 31 ≤ n ∧ n < 2 ^ 31 then some (n, s) else none

/-- A decimal number: `mant * 10 ^ exp`. Part of `>>` in `src/Target_Nucleus.cpp:150`. -/
structure Decimal where
  mant : ℤ
  exp : ℤ
  deriving DecidableEq

/-- The optional fractional part: its digits and the rest. Part of `>>` in `src/Target_Nucleus.cpp:150`. -/
def readFraction : List Char → List Char × List Char
  | '.' :: s => (s.takeWhile isDigit, s.dropWhile isDigit)
  | s => ([], s)

/-- The optional exponent; an `e` without digits behind it cannot be converted. Part of `>>` in `src/Target_Nucleus.cpp:150`. -/
def readExponent : List Char → Option (ℤ × List Char)
  | 'e' :: s => readDigits s
  | 'E' :: s => readDigits s
  | s => some (0, s)

/-- `f >> abund` and the other numbers of type `double`, `src/Target_Nucleus.cpp:150`. -/
def readDouble (s : List Char) : Option (Decimal × List Char) :=
  let (neg, s) := readSign (skipSpace s)
  let ds := s.takeWhile isDigit
  let (fs, s) := readFraction (s.dropWhile isDigit)
  if ds = [] ∧ fs = [] then none
  else
    match readExponent s with
    | none => none
    | some (e, s) => some (⟨signed neg (natOf (ds ++ fs)), e - fs.length⟩, s)

/-- The variables filled by one pass of the loop condition, `src/Target_Nucleus.cpp:146-150`. -/
structure Row where
  name : List Char
  Z : ℤ
  A : ℤ
  abundance : Decimal
  spin : Decimal
  sp : Decimal
  sn : Decimal
  deriving DecidableEq

/-- `f >> name >> Z >> A >> abund >> spin >> sp >> sn`, `src/Target_Nucleus.cpp:150`. -/
def readRow (s : List Char) : Option (Row × List Char) := do
  let (name, s) ← readWord s
  let (Z, s) ← readInt s
  let (A, s) ← readInt s
  let (abundance, s) ← readDouble s
  let (spin, s) ← readDouble s
  let (sp, s) ← readDouble s
  let (sn, s) ← readDouble s
  some (⟨name, Z, A, abundance, spin, sp, sn⟩, s)

/-- The passes of the loop, `src/Target_Nucleus.cpp:150-160`, at most `fuel` of them. -/
def readRows : ℕ → List Char → List Row
  | 0, _ => []
  | fuel + 1, s =>
    match readRow s with
    | none => []
    | some (r, s) => r :: readRows fuel s

/-- All rows the loop sees, `src/Target_Nucleus.cpp:150-160`. Every pass takes at least one character, so that the length of the text bounds
their number. -/
def parse (text : List Char) : List Row := readRows (text.length + 1) text

/-- The value of a decimal number. Part of `>>` in `src/Target_Nucleus.cpp:150`. -/
noncomputable def Decimal.value (d : Decimal) : ℝ := d.mant * (10 : ℝ) ^ d.exp

/-- The arguments of `Isotope(Z, A, abund, spin, sp, sn)`, `src/Target_Nucleus.cpp:158`. Simplification: negative integers, which the code
converts to `unsigned int` modulo `2 ^ 32`, become 0 here. -/
noncomputable def Row.toNuclearRow (r : Row) : NuclearRow :=
  { name := String.ofList r.name, Z := r.Z.toNat, A := r.A.toNat, abundance := r.abundance.value, spin := r.spin.value, sp := r.sp.value, sn := r.sn.value }

/-- The rows that `Import_Nuclear_Data` sees in a file with this text, `src/Target_Nucleus.cpp:139-160`; `none` is a missing file. -/
noncomputable def fileOf (text : Option (List Char)) : Option (List NuclearRow) := text.map fun t => (parse t).map Row.toNuclearRow

/-- The lines of `data/Nuclear_Data.txt`, byte by byte; each ends with a carriage return, except the last. -/
def shippedLines : List String := [
  "H\t1\t1\t0.99985\t0.5\t0.5\t0\r",
  "H\t1\t2\t0.00015\t1\t0\t0\r",
  "He\t2\t3\t1.37E-06\t0.5\t-0.081\t0.552\r",
  "He\t2\t4\t0.99999863\t0\t0\t0\r",
  "Li\t3\t6\t0.0759\t1\t0\t0\r",
  "Li\t3\t7\t0.9241\t1.5\t 0.497\t0.004\r",
  "Be\t4\t9\t1\t1.5\t0.007\t0.415\r",
  "B\t5\t10\t0.198\t3\t0\t0\r",
  "B\t5\t11\t0.802\t1.5\t0.292\t0.008\r",
  "C\t6\t12\t0.9889\t0\t0\t0\r",
  "C\t6\t13\t0.0111\t0.5\t-0.009\t-0.172\r",
  "N\t7\t14\t0.99634\t1\t0\t0\r",
  "N\t7\t15\t0.00366\t0.5\t-0.145\t0.037\r",
  "O\t8\t16\t0.99762\t0\t0\t0\r",
  "O\t8\t17\t0.00038\t2.5\t-0.036\t0.508\r",
  "O\t8\t18\t0.002\t0\t0\t0\r",
  "F\t9\t19\t1\t0.5\t0.478\t-0.002\r",
  "Ne\t10\t20\t0.9048\t0\t0\t0\r",
  "Ne\t10\t21\t0.0027\t1.5\t0.02\t0.294\r",
  "Ne\t10\t22\t0.0925\t0\t0\t0\r",
  "Na\t11\t23\t1\t1.5\t0.224\t0.024\r",
  "Mg\t12\t24\t0.7899\t0\t0\t0\r",
  "Mg\t12\t25\t0.1\t2.5\t0.04\t0.376\r",
  "Mg\t12\t26\t0.1101\t0\t0\t0\r",
  "Al\t13\t27\t1\t2.5\t0.326\t0.038\r",
  "Si\t14\t28\t0.9223\t0\t0\t0\r",
  "Si\t14\t29\t0.04683\t0.5\t0.016\t0.156\r",
  "Si\t14\t30\t0.03087\t0\t0\t0\r",
  "P\t15\t31\t1\t0.5\t0.181\t0.032\r",
  "S\t16\t32\t0.9502\t0\t0\t0\r",
  "S\t16\t33\t0.0075\t1.5\t0\t0\r",
  "S\t16\t34\t0.0421\t0\t0\t0\r",
  "S\t16\t36\t0.0002\t0\t0\t0\r",
  "Cl\t17\t35\t0.7577\t1.5\t-0.051\t-0.0088\r",
  "Cl\t17\t37\t0.2423\t1.5\t0\t0\r",
  "Ar\t18\t36\t0.003365\t0\t0\t0\r",
  "Ar\t18\t38\t0.000632\t0\t0\t0\r",
  "Ar\t18\t40\t0.996003\t0\t0\t0\r",
  "K\t19\t39\t0.932581\t1.5\t-0.197\t0.051\r",
  "K\t19\t40\t0.000117\t4\t0\t0\r",
  "K\t19\t41\t0.067302\t1.5\t0\t0\r",
  "Ca\t20\t40\t0.9694\t0\t0\t0\r",
  "Ca\t20\t42\t0.00647\t0\t0\t0\r",
  "Ca\t20\t43\t0.00135\t3.5\t0\t0\r",
  "Ca\t20\t44\t0.0209\t0\t0\t0\r",
  "Ca\t20\t46\t0.00004\t0\t0\t0\r",
  "Ca\t20\t48\t0.00187\t0\t0\t0\r",
  "Sc\t21\t45\t1\t3.5\t0\t0\r",
  "Ti\t22\t46\t0.0825\t0\t0\t0\r",
  "Ti\t22\t47\t0.0744\t2.5\t0\t0.21\r",
  "Ti\t22\t48\t0.7372\t0\t0\t0\r",
  "Ti\t22\t49\t0.0541\t3.5\t0\t0.29\r",
  "Ti\t22\t50\t0.0518\t0\t0\t0\r",
  "V\t23\t50\t0.0025\t6\t0\t0\r",
  "V\t23\t51\t0.9975\t3.5\t0.36\t0\r",
  "Cr\t24\t50\t0.04345\t0\t0\t0\r",
  "Cr\t24\t52\t0.83789\t0\t0\t0\r",
  "Cr\t24\t53\t0.09501\t1.5\t0\t0\r",
  "Cr\t24\t54\t0.02365\t0\t0\t0\r",
  "Mn\t25\t55\t1\t2.5\t0.264\t0\r",
  "Fe\t26\t54\t0.05845\t0\t0\t0\r",
  "Fe\t26\t56\t0.91754\t0\t0\t0\r",
  "Fe\t26\t57\t0.02119\t0.5\t0\t0\r",
  "Fe\t26\t58\t0.00282\t0\t0\t0\r",
  "Co\t27\t59\t1\t3.5\t0.25\t0\r",
  "Ni\t28\t58\t0.68077\t0\t0\t0\r",
  "Ni\t28\t60\t0.26223\t0\t0\t0\r",
  "Ni\t28\t61\t0.0114\t1.5\t0\t0\r",
  "Ni\t28\t62\t0.03634\t0\t0\t0\r",
  "Ni\t28\t64\t0.00926\t0\t0\t0\r",
  "Cu\t29\t63\t0.6917\t1.5\t0\t0\r",
  "Cu\t29\t65\t0.3083\t1.5\t0\t0\r",
  "Zn\t30\t64\t0.4863\t0\t0\t0\r",
  "Zn\t30\t66\t0.279\t0\t0\t0\r",
  "Zn\t30\t67\t0.041\t2.5\t0\t-0.23\r",
  "Zn\t30\t68\t0.1875\t0\t0\t0\r",
  "Zn\t30\t70\t0.0062\t0\t0\t0\r",
  "Ga\t31\t69\t0.60108\t1.5\t0.11\t0\r",
  "Ga\t31\t71\t0.39892\t1.5\t0.23\t0\r",
  "Ge\t32\t70\t0.2037\t0\t0\t0\r",
  "Ge\t32\t72\t0.2731\t0\t0\t0\r",
  "Ge\t32\t73\t0.0776\t4.5\t0.031\t0.439\r",
  "Ge\t32\t74\t0.3673\t0\t0\t0\r",
  "Ge\t32\t76\t0.0783\t0\t0\t0\r",
  "As\t33\t75\t1\t1.5\t-0.01\t0\r",
  "Se\t34\t74\t0.0089\t0\t0\t0\r",
  "Se\t34\t76\t0.0937\t0\t0\t0\r",
  "Se\t34\t77\t0.0763\t0.5\t0\t0\r",
  "Se\t34\t78\t0.2377\t0\t0\t0\r",
  "Se\t34\t80\t0.4961\t0\t0\t0\r",
  "Se\t34\t82\t0.0873\t0\t0\t0\r",
  "Br\t35\t79\t0.5069\t1.5\t0.13\t0\r",
  "Br\t35\t81\t0.4931\t1.5\t0.17\t0\r",
  "Kr\t36\t78\t0.0035\t0\t0\t0\r",
  "Kr\t36\t80\t0.0228\t0\t0\t0\r",
  "Kr\t36\t82\t0.1158\t0\t0\t0\r",
  "Kr\t36\t83\t0.1149\t4.5\t0\t0\r",
  "Kr\t36\t84\t0.57\t0\t0\t0\r",
  "Kr\t36\t86\t0.173\t0\t0\t0\r",
  "Rb\t37\t85\t0.7217\t2.5\t0\t0\r",
  "Rb\t37\t87\t0.2783\t1.5\t0\t0\r",
  "Sr\t38\t84\t0.0056\t0\t0\t0\r",
  "Sr\t38\t86\t0.0986\t0\t0\t0\r",
  "Sr\t38\t87\t0.07\t4.5\t0\t0\r",
  "Sr\t38\t88\t0.8258\t0\t0\t0\r",
  "Y\t39\t89\t1\t0.5\t0\t0\r",
  "Zr\t40\t90\t0.5145\t0\t0\t0\r",
  "Zr\t40\t91\t0.1122\t2.5\t0\t0.34\r",
  "Zr\t40\t92\t0.1715\t0\t0\t0\r",
  "Zr\t40\t94\t0.1738\t0\t0\t0\r",
  "Zr\t40\t96\t0.028\t0\t0\t0\r",
  "Nb\t41\t93\t1\t4.5\t0.48\t0.04\r",
  "Mo\t42\t100\t0.0963\t0\t0\t0\r",
  "Mo\t42\t92\t0.1484\t0\t0\t0\r",
  "Mo\t42\t94\t0.0925\t0\t0\t0\r",
  "Mo\t42\t95\t0.1592\t2.5\t0\t0\r",
  "Mo\t42\t96\t0.1668\t0\t0\t0\r",
  "Mo\t42\t97\t0.0955\t2.5\t0\t0\r",
  "Mo\t42\t98\t0.2413\t0\t0\t0\r",
  "Tc\t43\t99\t0\t0\t0\t0\r",
  "Ru\t44\t100\t0.126\t0\t0\t0\r",
  "Ru\t44\t101\t0.1706\t2.5\t0\t0.19\r",
  "Ru\t44\t102\t0.3155\t0\t0\t0\r",
  "Ru\t44\t104\t0.1862\t0\t0\t0\r",
  "Ru\t44\t96\t0.0554\t0\t0\t0\r",
  "Ru\t44\t98\t0.0187\t0\t0\t0\r",
  "Ru\t44\t99\t0.1276\t2.5\t0\t0.17\r",
  "Rh\t45\t103\t1\t0.5\t0\t0\r",
  "Pd\t46\t102\t0.0102\t0\t0\t0\r",
  "Pd\t46\t104\t0.1114\t0\t0\t0\r",
  "Pd\t46\t105\t0.2233\t2.5\t0\t0\r",
  "Pd\t46\t106\t0.2733\t0\t0\t0\r",
  "Pd\t46\t108\t0.2646\t0\t0\t0\r",
  "Pd\t46\t110\t0.1172\t0\t0\t0\r",
  "Ag\t47\t107\t0.51839\t0.5\t-0.13\t0\r",
  "Ag\t47\t109\t0.48161\t0.5\t-0.14\t0\r",
  "Cd\t48\t106\t0.0125\t0\t0\t0\r",
  "Cd\t48\t108\t0.0089\t0\t0\t0\r",
  "Cd\t48\t110\t0.1249\t0\t0\t0\r",
  "Cd\t48\t111\t0.128\t0.5\t0\t0.16\r",
  "Cd\t48\t112\t0.2413\t0\t0\t0\r",
  "Cd\t48\t113\t0.1222\t0.5\t-0.001\t0.488\r",
  "Cd\t48\t114\t0.2873\t0\t0\t0\r",
  "Cd\t48\t116\t0.0749\t0\t0\t0\r",
  "In\t49\t113\t0.0429\t4.5\t0\t0\r",
  "In\t49\t115\t0.9571\t4.5\t-0.001\t0.488\r",
  "Sn\t50\t112\t0.0097\t0\t0\t0\r",
  "Sn\t50\t114\t0.0066\t0\t0\t0\r",
  "Sn\t50\t115\t0.0034\t0.5\t0\t0.24\r",
  "Sn\t50\t116\t0.1454\t0\t0\t0\r",
  "Sn\t50\t117\t0.0768\t0.5\t0\t0.126\r",
  "Sn\t50\t118\t0.2422\t0\t0\t0\r",
  "Sn\t50\t119\t0.0859\t0.5\t0\t0\r",
  "Sn\t50\t120\t0.3258\t0\t0\t0\r",
  "Sn\t50\t122\t0.0463\t0\t0\t0\r",
  "Sn\t50\t124\t0.0579\t0\t0\t0\r",
  "Sb\t51\t121\t0.5721\t2.5\t0.188\t0\r",
  "Sb\t51\t123\t0.4279\t3.5\t-0.207\t0\r",
  "Te\t52\t120\t0.0009\t0\t0\t0\r",
  "Te\t52\t122\t0.0255\t0\t0\t0\r",
  "Te\t52\t123\t0.0089\t0.5\t0\t0.491\r",
  "Te\t52\t124\t0.0474\t0\t0\t0\r",
  "Te\t52\t125\t0.0707\t0.5\t-0.0008\t0.499\r",
  "Te\t52\t126\t0.1884\t0\t0\t0\r",
  "Te\t52\t128\t0.3174\t0\t0\t0\r",
  "Te\t52\t130\t0.3408\t0\t0\t0\r",
  "I\t53\t127\t1\t2.5\t0.342\t0.031\r",
  "Xe\t54\t124\t0.00095\t0\t0\t0\r",
  "Xe\t54\t126\t0.00089\t0\t0\t0\r",
  "Xe\t54\t128\t0.0191\t0\t0\t0\r",
  "Xe\t54\t129\t0.264\t0.5\t0.01\t0.329\r",
  "Xe\t54\t130\t0.04071\t0\t0\t0\r",
  "Xe\t54\t131\t0.21232\t1.5\t-0.009\t-0.272\r",
  "Xe\t54\t132\t0.26909\t0\t0\t0\r",
  "Xe\t54\t134\t0.10436\t0\t0\t0\r",
  "Xe\t54\t136\t0.08857\t0\t0\t0\r",
  "Cs\t55\t133\t1\t3.5\t-0.225\t0.002\r",
  "Ba\t56\t130\t0.00106\t0\t0\t0\r",
  "Ba\t56\t132\t0.00101\t0\t0\t0\r",
  "Ba\t56\t134\t0.02417\t0\t0\t0\r",
  "Ba\t56\t135\t0.06592\t1.5\t-0.004\t-0.145\r",
  "Ba\t56\t136\t0.07854\t0\t0\t0\r",
  "Ba\t56\t137\t0.11232\t1.5\t0\t0\r",
  "Ba\t56\t138\t0.71698\t0\t0\t0\r",
  "La\t57\t138\t0.0009\t5\t0\t0\r",
  "La\t57\t139\t0.9991\t3.5\t-0.16\t0\r",
  "Ce\t58\t136\t0.00185\t0\t0\t0\r",
  "Ce\t58\t138\t0.00251\t0\t0\t0\r",
  "Ce\t58\t140\t0.8845\t0\t0\t0\r",
  "Ce\t58\t142\t0.11114\t0\t0\t0\r",
  "Pr\t59\t141\t1\t2.5\t0\t0\r",
  "Nd\t60\t142\t0.272\t0\t0\t0\r",
  "Nd\t60\t143\t0.122\t3.5\t0\t0\r",
  "Nd\t60\t144\t0.238\t0\t0\t0\r",
  "Nd\t60\t145\t0.083\t3.5\t0\t0\r",
  "Nd\t60\t146\t0.172\t0\t0\t0\r",
  "Nd\t60\t148\t0.057\t0\t0\t0\r",
  "Nd\t60\t150\t0.056\t0\t0\t0\r",
  "Pm\t61\t145\t0\t0\t0\t0\r",
  "Sm\t62\t144\t0.0307\t0\t0\t0\r",
  "Sm\t62\t147\t0.1499\t3.5\t0\t0\r",
  "Sm\t62\t148\t0.1124\t0\t0\t0\r",
  "Sm\t62\t149\t0.1382\t3.5\t0\t0\r",
  "Sm\t62\t150\t0.0738\t0\t0\t0\r",
  "Sm\t62\t152\t0.2675\t0\t0\t0\r",
  "Sm\t62\t154\t0.2275\t0\t0\t0\r",
  "Eu\t63\t151\t0.4781\t2.5\t0\t0\r",
  "Eu\t63\t153\t0.5219\t2.5\t0\t0\r",
  "Gd\t64\t152\t0.002\t0\t0\t0\r",
  "Gd\t64\t154\t0.0218\t0\t0\t0\r",
  "Gd\t64\t155\t0.148\t1.5\t0\t0.07\r",
  "Gd\t64\t156\t0.2047\t0\t0\t0\r",
  "Gd\t64\t157\t0.1565\t1.5\t0\t0.09\r",
  "Gd\t64\t158\t0.2484\t0\t0\t0\r",
  "Gd\t64\t160\t0.2186\t0\t0\t0\r",
  "Tb\t65\t159\t1\t1.5\t0\t0\r",
  "Dy\t66\t156\t0.0006\t0\t0\t0\r",
  "Dy\t66\t158\t0.001\t0\t0\t0\r",
  "Dy\t66\t160\t0.0234\t0\t0\t0\r",
  "Dy\t66\t161\t0.1891\t2.5\t0\t0\r",
  "Dy\t66\t162\t0.2551\t0\t0\t0\r",
  "Dy\t66\t163\t0.249\t2.5\t0\t0\r",
  "Dy\t66\t164\t0.2818\t0\t0\t0\r",
  "Ho\t67\t165\t1\t3.5\t0\t0\r",
  "Er\t68\t162\t0.00139\t0\t0\t0\r",
  "Er\t68\t164\t0.01601\t0\t0\t0\r",
  "Er\t68\t166\t0.33503\t0\t0\t0\r",
  "Er\t68\t167\t0.22869\t3.5\t0\t0\r",
  "Er\t68\t168\t0.26978\t0\t0\t0\r",
  "Er\t68\t170\t0.1491\t0\t0\t0\r",
  "Tm\t69\t169\t1\t0.5\t0\t0\r",
  "Yb\t70\t168\t0.0013\t0\t0\t0\r",
  "Yb\t70\t170\t0.0304\t0\t0\t0\r",
  "Yb\t70\t171\t0.1428\t0.5\t0\t0\r",
  "Yb\t70\t172\t0.2183\t0\t0\t0\r",
  "Yb\t70\t173\t0.1613\t2.5\t0\t0\r",
  "Yb\t70\t174\t0.3183\t0\t0\t0\r",
  "Yb\t70\t176\t0.1276\t0\t0\t0\r",
  "Lu\t71\t175\t0.9741\t3.5\t0\t0\r",
  "Lu\t71\t176\t0.0259\t7\t0\t0\r",
  "Hf\t72\t174\t0.0016\t0\t0\t0\r",
  "Hf\t72\t176\t0.0526\t0\t0\t0\r",
  "Hf\t72\t177\t0.186\t3.5\t0\t0\r",
  "Hf\t72\t178\t0.2728\t0\t0\t0\r",
  "Hf\t72\t179\t0.1362\t4.5\t0\t0\r",
  "Hf\t72\t180\t0.3508\t0\t0\t0\r",
  "Ta\t73\t181\t0.99988\t3.5\t0\t0\r",
  "W\t74\t180\t0.0012\t0\t0\t0\r",
  "W\t74\t182\t0.265\t0\t0\t0\r",
  "W\t74\t183\t0.1431\t0.5\t0\t-0.03\r",
  "W\t74\t184\t0.3064\t0\t0\t0\r",
  "W\t74\t186\t0.2843\t0\t0\t0\r",
  "Re\t75\t185\t0.374\t2.5\t0\t0\r",
  "Re\t75\t187\t0.626\t2.5\t0\t0\r",
  "Os\t76\t184\t0.0002\t0\t0\t0\r",
  "Os\t76\t186\t0.0159\t0\t0\t0\r",
  "Os\t76\t187\t0.016\t0.5\t0\t0\r",
  "Os\t76\t188\t0.1329\t0\t0\t0\r",
  "Os\t76\t189\t0.1621\t1.5\t0\t0\r",
  "Os\t76\t190\t0.2636\t0\t0\t0\r",
  "Os\t76\t192\t0.4093\t0\t0\t0\r",
  "Ir\t77\t191\t0.373\t1.5\t-0.295\t0\r",
  "Ir\t77\t193\t0.627\t1.5\t-0.292\t0\r",
  "Pt\t78\t190\t0.00014\t0\t0\t0\r",
  "Pt\t78\t192\t0.00782\t0\t0\t0\r",
  "Pt\t78\t194\t0.32967\t0\t0\t0\r",
  "Pt\t78\t195\t0.33832\t0.5\t0\t0\r",
  "Pt\t78\t196\t0.25242\t0\t0\t0\r",
  "Pt\t78\t198\t0.07163\t0\t0\t0\r",
  "Au\t79\t197\t1\t1.5\t0\t0\r",
  "Hg\t80\t196\t0.0015\t0\t0\t0\r",
  "Hg\t80\t198\t0.0997\t0\t0\t0\r",
  "Hg\t80\t199\t0.1687\t0.5\t0\t-0.13\r",
  "Hg\t80\t200\t0.231\t0\t0\t0\r",
  "Hg\t80\t201\t0.1318\t1.5\t0\t0.146\r",
  "Hg\t80\t202\t0.2986\t0\t0\t0\r",
  "Hg\t80\t204\t0.0686\t0\t0\t0\r",
  "Tl\t81\t203\t0.29524\t0.5\t0.24\t0\r",
  "Tl\t81\t205\t0.70476\t0.5\t0.25\t0\r",
  "Pb\t82\t204\t0.014\t0\t0\t0\r",
  "Pb\t82\t206\t0.241\t0\t0\t0\r",
  "Pb\t82\t207\t0.221\t0.5\t-0.01\t-0.149\r",
  "Pb\t82\t208\t0.524\t0\t0\t0\r",
  "Bi\t83\t209\t1\t4.5\t-0.085\t0\r",
  "Po\t84\t210\t1\t0\t0\t0\r",
  "At\t85\t210\t1\t0\t0\t0\r",
  "Rn\t86\t222\t1\t0\t0\t0\r",
  "Fr\t87\t223\t1\t0\t0\t0\r",
  "Ra\t88\t226\t1\t0\t0\t0\r",
  "Ac\t89\t227\t1\t0\t0\t0\r",
  "Th\t90\t232\t1\t0\t0\t0\r",
  "Pa\t91\t231\t1\t0\t0\t0\r",
  "U\t92\t234\t0.000054\t0\t0\t0\r",
  "U\t92\t235\t0.007204\t3.5\t0\t0\r",
  "U\t92\t238\t0.992742\t0\t0\t0"]

/-- The text of `data/Nuclear_Data.txt`. -/
def shippedText : List Char := shippedLines.flatMap String.toList

end Obscura.NuclearText
