import Verif.Thermo.OrderLogs

/-!
Olivine. Generated by /verif/tools/gen/genord.py from the macros of /repo/sources/olivine.c: one definition per macro, with the
macros it mentions as definitions (the generator checks that this has the value of C's textual substitution).
-/

namespace Verif.Thermo.Ordering

open Magma.Thermo.Mixing (R)

noncomputable section

set_option linter.unusedVariables false
set_option linter.unnecessarySeqFocus false
set_option linter.unusedSimpArgs false
set_option linter.unusedTactic false
set_option linter.unreachableTactic false

namespace Olivine

/-- `S`, olivine.c 949-952. -/
def S (xm1mn xm2mn xm1fe xm2fe xm1co xm2co xm1ni xm2ni xm2ca xm1mg xm2mg : ℝ) : ℝ :=
  (-R) * (xm1mn * Real.log xm1mn + xm2mn * Real.log xm2mn + xm1fe * Real.log xm1fe + xm2fe * Real.log xm2fe +
    xm1co * Real.log xm1co + xm2co * Real.log xm2co + xm1ni * Real.log xm1ni + xm2ni * Real.log xm2ni + xm2ca *
    Real.log xm2ca + xm1mg * Real.log xm1mg + xm2mg * Real.log xm2mg)

/-- `HXMNFE`, olivine.c 147. -/
def HXMNFE : ℝ :=
  (1 / 2) * 1000

/-- `VXMNFE`, olivine.c 158. -/
def VXMNFE : ℝ :=
  0

/-- `GXMNFE`, olivine.c 239. -/
def GXMNFE (p : ℝ) : ℝ :=
  HXMNFE + (p - 1) * VXMNFE

/-- `WH1MNFE`, olivine.c 173. -/
def WH1MNFE : ℝ :=
  (7 / 4) * 1000

/-- `WV1MNFE`, olivine.c 194. -/
def WV1MNFE : ℝ :=
  0

/-- `W1MNFE`, olivine.c 254. -/
def W1MNFE (p : ℝ) : ℝ :=
  WH1MNFE + (p - 1) * WV1MNFE

/-- `WH2MNFE`, olivine.c 174. -/
def WH2MNFE : ℝ :=
  (7 / 4) * 1000

/-- `WV2MNFE`, olivine.c 195. -/
def WV2MNFE : ℝ :=
  0

/-- `W2MNFE`, olivine.c 255. -/
def W2MNFE (p : ℝ) : ℝ :=
  WH2MNFE + (p - 1) * WV2MNFE

/-- `HXMNCO`, olivine.c 148. -/
def HXMNCO : ℝ :=
  0 * 1000

/-- `VXMNCO`, olivine.c 159. -/
def VXMNCO : ℝ :=
  0

/-- `GXMNCO`, olivine.c 240. -/
def GXMNCO (p : ℝ) : ℝ :=
  HXMNCO + (p - 1) * VXMNCO

/-- `WH1MNCO`, olivine.c 175. -/
def WH1MNCO : ℝ :=
  0 * 1000

/-- `WV1MNCO`, olivine.c 196. -/
def WV1MNCO : ℝ :=
  0

/-- `W1MNCO`, olivine.c 256. -/
def W1MNCO (p : ℝ) : ℝ :=
  WH1MNCO + (p - 1) * WV1MNCO

/-- `WH2MNCO`, olivine.c 176. -/
def WH2MNCO : ℝ :=
  0 * 1000

/-- `WV2MNCO`, olivine.c 197. -/
def WV2MNCO : ℝ :=
  0

/-- `W2MNCO`, olivine.c 257. -/
def W2MNCO (p : ℝ) : ℝ :=
  WH2MNCO + (p - 1) * WV2MNCO

/-- `HXMNNI`, olivine.c 149. -/
def HXMNNI : ℝ :=
  0 * 1000

/-- `VXMNNI`, olivine.c 160. -/
def VXMNNI : ℝ :=
  0

/-- `GXMNNI`, olivine.c 241. -/
def GXMNNI (p : ℝ) : ℝ :=
  HXMNNI + (p - 1) * VXMNNI

/-- `WH1MNNI`, olivine.c 177. -/
def WH1MNNI : ℝ :=
  0 * 1000

/-- `WV1MNNI`, olivine.c 198. -/
def WV1MNNI : ℝ :=
  0

/-- `W1MNNI`, olivine.c 258. -/
def W1MNNI (p : ℝ) : ℝ :=
  WH1MNNI + (p - 1) * WV1MNNI

/-- `WH2MNNI`, olivine.c 178. -/
def WH2MNNI : ℝ :=
  0 * 1000

/-- `WV2MNNI`, olivine.c 199. -/
def WV2MNNI : ℝ :=
  0

/-- `W2MNNI`, olivine.c 259. -/
def W2MNNI (p : ℝ) : ℝ :=
  WH2MNNI + (p - 1) * WV2MNNI

/-- `HXFECO`, olivine.c 150. -/
def HXFECO : ℝ :=
  3 * 1000

/-- `VXFECO`, olivine.c 161. -/
def VXFECO : ℝ :=
  0

/-- `GXFECO`, olivine.c 242. -/
def GXFECO (p : ℝ) : ℝ :=
  HXFECO + (p - 1) * VXFECO

/-- `WH1FECO`, olivine.c 179. -/
def WH1FECO : ℝ :=
  (3 / 2) * 1000

/-- `WV1FECO`, olivine.c 200. -/
def WV1FECO : ℝ :=
  0

/-- `W1FECO`, olivine.c 260. -/
def W1FECO (p : ℝ) : ℝ :=
  WH1FECO + (p - 1) * WV1FECO

/-- `WH2FECO`, olivine.c 180. -/
def WH2FECO : ℝ :=
  (3 / 2) * 1000

/-- `WV2FECO`, olivine.c 201. -/
def WV2FECO : ℝ :=
  0

/-- `W2FECO`, olivine.c 261. -/
def W2FECO (p : ℝ) : ℝ :=
  WH2FECO + (p - 1) * WV2FECO

/-- `HXFENI`, olivine.c 151. -/
def HXFENI : ℝ :=
  10 * 1000

/-- `VXFENI`, olivine.c 162. -/
def VXFENI : ℝ :=
  0

/-- `GXFENI`, olivine.c 243. -/
def GXFENI (p : ℝ) : ℝ :=
  HXFENI + (p - 1) * VXFENI

/-- `WH1FENI`, olivine.c 181. -/
def WH1FENI : ℝ :=
  5 * 1000

/-- `WV1FENI`, olivine.c 202. -/
def WV1FENI : ℝ :=
  0

/-- `W1FENI`, olivine.c 262. -/
def W1FENI (p : ℝ) : ℝ :=
  WH1FENI + (p - 1) * WV1FENI

/-- `WH2FENI`, olivine.c 182. -/
def WH2FENI : ℝ :=
  5 * 1000

/-- `WV2FENI`, olivine.c 203. -/
def WV2FENI : ℝ :=
  0

/-- `W2FENI`, olivine.c 263. -/
def W2FENI (p : ℝ) : ℝ :=
  WH2FENI + (p - 1) * WV2FENI

/-- `HXCONI`, olivine.c 152. -/
def HXCONI : ℝ :=
  0 * 1000

/-- `VXCONI`, olivine.c 163. -/
def VXCONI : ℝ :=
  0

/-- `GXCONI`, olivine.c 244. -/
def GXCONI (p : ℝ) : ℝ :=
  HXCONI + (p - 1) * VXCONI

/-- `WH1CONI`, olivine.c 183. -/
def WH1CONI : ℝ :=
  0 * 1000

/-- `WV1CONI`, olivine.c 204. -/
def WV1CONI : ℝ :=
  0

/-- `W1CONI`, olivine.c 264. -/
def W1CONI (p : ℝ) : ℝ :=
  WH1CONI + (p - 1) * WV1CONI

/-- `WH2CONI`, olivine.c 184. -/
def WH2CONI : ℝ :=
  0 * 1000

/-- `WV2CONI`, olivine.c 205. -/
def WV2CONI : ℝ :=
  0

/-- `W2CONI`, olivine.c 265. -/
def W2CONI (p : ℝ) : ℝ :=
  WH2CONI + (p - 1) * WV2CONI

/-- `HXMGMN`, olivine.c 143. -/
def HXMGMN : ℝ :=
  (35 / 4) * 1000

/-- `VXMGMN`, olivine.c 154. -/
def VXMGMN : ℝ :=
  0

/-- `GXMGMN`, olivine.c 235. -/
def GXMGMN (p : ℝ) : ℝ :=
  HXMGMN + (p - 1) * VXMGMN

/-- `WH1MGMN`, olivine.c 165. -/
def WH1MGMN : ℝ :=
  (53 / 8) * 1000

/-- `WV1MGMN`, olivine.c 186. -/
def WV1MGMN : ℝ :=
  0

/-- `W1MGMN`, olivine.c 246. -/
def W1MGMN (p : ℝ) : ℝ :=
  WH1MGMN + (p - 1) * WV1MGMN

/-- `WH2MGMN`, olivine.c 166. -/
def WH2MGMN : ℝ :=
  (53 / 8) * 1000

/-- `WV2MGMN`, olivine.c 187. -/
def WV2MGMN : ℝ :=
  0

/-- `W2MGMN`, olivine.c 247. -/
def W2MGMN (p : ℝ) : ℝ :=
  WH2MGMN + (p - 1) * WV2MGMN

/-- `HXMGFE`, olivine.c 144. -/
def HXMGFE : ℝ :=
  (203 / 20) * 1000

/-- `VXMGFE`, olivine.c 155. -/
def VXMGFE : ℝ :=
  (3 / 200)

/-- `GXMGFE`, olivine.c 236. -/
def GXMGFE (p : ℝ) : ℝ :=
  HXMGFE + (p - 1) * VXMGFE

/-- `WH1MGFE`, olivine.c 167. -/
def WH1MGFE : ℝ :=
  (203 / 40) * 1000

/-- `WV1MGFE`, olivine.c 188. -/
def WV1MGFE : ℝ :=
  0

/-- `W1MGFE`, olivine.c 248. -/
def W1MGFE (p : ℝ) : ℝ :=
  WH1MGFE + (p - 1) * WV1MGFE

/-- `WH2MGFE`, olivine.c 168. -/
def WH2MGFE : ℝ :=
  (203 / 40) * 1000

/-- `WV2MGFE`, olivine.c 189. -/
def WV2MGFE : ℝ :=
  0

/-- `W2MGFE`, olivine.c 249. -/
def W2MGFE (p : ℝ) : ℝ :=
  WH2MGFE + (p - 1) * WV2MGFE

/-- `HXMGCO`, olivine.c 145. -/
def HXMGCO : ℝ :=
  3 * 1000

/-- `VXMGCO`, olivine.c 156. -/
def VXMGCO : ℝ :=
  0

/-- `GXMGCO`, olivine.c 237. -/
def GXMGCO (p : ℝ) : ℝ :=
  HXMGCO + (p - 1) * VXMGCO

/-- `WH1MGCO`, olivine.c 169. -/
def WH1MGCO : ℝ :=
  (3 / 2) * 1000

/-- `WV1MGCO`, olivine.c 190. -/
def WV1MGCO : ℝ :=
  0

/-- `W1MGCO`, olivine.c 250. -/
def W1MGCO (p : ℝ) : ℝ :=
  WH1MGCO + (p - 1) * WV1MGCO

/-- `WH2MGCO`, olivine.c 170. -/
def WH2MGCO : ℝ :=
  (3 / 2) * 1000

/-- `WV2MGCO`, olivine.c 191. -/
def WV2MGCO : ℝ :=
  0

/-- `W2MGCO`, olivine.c 251. -/
def W2MGCO (p : ℝ) : ℝ :=
  WH2MGCO + (p - 1) * WV2MGCO

/-- `HXMGNI`, olivine.c 146. -/
def HXMGNI : ℝ :=
  (11 / 5) * 1000

/-- `VXMGNI`, olivine.c 157. -/
def VXMGNI : ℝ :=
  0

/-- `GXMGNI`, olivine.c 238. -/
def GXMGNI (p : ℝ) : ℝ :=
  HXMGNI + (p - 1) * VXMGNI

/-- `WH1MGNI`, olivine.c 171. -/
def WH1MGNI : ℝ :=
  (-(3 / 5)) * 1000

/-- `WV1MGNI`, olivine.c 192. -/
def WV1MGNI : ℝ :=
  0

/-- `W1MGNI`, olivine.c 252. -/
def W1MGNI (p : ℝ) : ℝ :=
  WH1MGNI + (p - 1) * WV1MGNI

/-- `WH2MGNI`, olivine.c 172. -/
def WH2MGNI : ℝ :=
  (14 / 5) * 1000

/-- `WV2MGNI`, olivine.c 193. -/
def WV2MGNI : ℝ :=
  0

/-- `W2MGNI`, olivine.c 253. -/
def W2MGNI (p : ℝ) : ℝ :=
  WH2MGNI + (p - 1) * WV2MGNI

/-- `G0`, olivine.c 278-287. -/
def G0 (p : ℝ) : ℝ :=
  (1 / 4) * (GXMNFE p + (W1MNFE p) + (W2MNFE p) + (GXMNCO p + (W1MNCO p) + (W2MNCO p)) + (GXMNNI p + (W1MNNI
    p) + (W2MNNI p)) + (GXFECO p + (W1FECO p) + (W2FECO p)) + (GXFENI p + (W1FENI p) + (W2FENI p)) + (GXCONI p +
    (W1CONI p) + (W2CONI p)) - 2 * (GXMGMN p + (W1MGMN p) + (W2MGMN p)) - 2 * (GXMGFE p + (W1MGFE p) + (W2MGFE
    p)) - 2 * (GXMGCO p + (W1MGCO p) + (W2MGCO p)) - 2 * (GXMGNI p + (W1MGNI p) + (W2MGNI p)))

/-- `GR1`, olivine.c 288-294. -/
def GR1 (p : ℝ) : ℝ :=
  (1 / 4) * ((-3) * (GXMGMN p + (W1MGMN p) + (W2MGMN p)) - (GXMGFE p + (W1MGFE p) + (W2MGFE p)) - (GXMGCO p +
    (W1MGCO p) + (W2MGCO p)) - (GXMGNI p + (W1MGNI p) + (W2MGNI p)) + (GXMNFE p + (W1MNFE p) + (W2MNFE p)) +
    (GXMNCO p + (W1MNCO p) + (W2MNCO p)) + (GXMNNI p + (W1MNNI p) + (W2MNNI p)))

/-- `GR2`, olivine.c 295-301. -/
def GR2 (p : ℝ) : ℝ :=
  (1 / 4) * (-(GXMGMN p + (W1MGMN p) + (W2MGMN p)) - 3 * (GXMGFE p + (W1MGFE p) + (W2MGFE p)) - (GXMGCO p +
    (W1MGCO p) + (W2MGCO p)) - (GXMGNI p + (W1MGNI p) + (W2MGNI p)) + (GXMNFE p + (W1MNFE p) + (W2MNFE p)) +
    (GXFECO p + (W1FECO p) + (W2FECO p)) + (GXFENI p + (W1FENI p) + (W2FENI p)))

/-- `GR3`, olivine.c 302-308. -/
def GR3 (p : ℝ) : ℝ :=
  (1 / 4) * (-(GXMGMN p + (W1MGMN p) + (W2MGMN p)) - (GXMGFE p + (W1MGFE p) + (W2MGFE p)) - 3 * (GXMGCO p +
    (W1MGCO p) + (W2MGCO p)) - (GXMGNI p + (W1MGNI p) + (W2MGNI p)) + (GXMNCO p + (W1MNCO p) + (W2MNCO p)) +
    (GXFECO p + (W1FECO p) + (W2FECO p)) + (GXCONI p + (W1CONI p) + (W2CONI p)))

/-- `GR4`, olivine.c 309-315. -/
def GR4 (p : ℝ) : ℝ :=
  (1 / 4) * (-(GXMGMN p + (W1MGMN p) + (W2MGMN p)) - (GXMGFE p + (W1MGFE p) + (W2MGFE p)) - (GXMGCO p +
    (W1MGCO p) + (W2MGCO p)) - 3 * (GXMGNI p + (W1MGNI p) + (W2MGNI p)) + (GXMNNI p + (W1MNNI p) + (W2MNNI p)) +
    (GXFENI p + (W1FENI p) + (W2FENI p)) + (GXCONI p + (W1CONI p) + (W2CONI p)))

/-- `WH2CAMG`, olivine.c 207. -/
def WH2CAMG : ℝ :=
  (69 / 2) * 1000

/-- `WV2CAMG`, olivine.c 213. -/
def WV2CAMG : ℝ :=
  (7 / 20)

/-- `W2CAMG`, olivine.c 267. -/
def W2CAMG (p : ℝ) : ℝ :=
  WH2CAMG + (p - 1) * WV2CAMG

/-- `F_MN`, olivine.c 219. -/
def F_MN : ℝ :=
  (19 / 2) * 1000

/-- `HEXMGMN`, olivine.c 121. -/
def HEXMGMN : ℝ :=
  (79 / 5) * 1000

/-- `VEXMGMN`, olivine.c 132. -/
def VEXMGMN : ℝ :=
  0

/-- `GEXMGMN`, olivine.c 224. -/
def GEXMGMN (p : ℝ) : ℝ :=
  HEXMGMN + (p - 1) * VEXMGMN

/-- `WH2CAMN`, olivine.c 208. -/
def WH2CAMN : ℝ :=
  16 * 1000

/-- `WV2CAMN`, olivine.c 214. -/
def WV2CAMN : ℝ :=
  0

/-- `W2CAMN`, olivine.c 268. -/
def W2CAMN (p : ℝ) : ℝ :=
  WH2CAMN + (p - 1) * WV2CAMN

/-- `F_FE`, olivine.c 220. -/
def F_FE : ℝ :=
  (19 / 2) * 1000

/-- `HEXMGFE`, olivine.c 122. -/
def HEXMGFE : ℝ :=
  0 * 1000

/-- `VEXMGFE`, olivine.c 133. -/
def VEXMGFE : ℝ :=
  0

/-- `GEXMGFE`, olivine.c 225. -/
def GEXMGFE (p : ℝ) : ℝ :=
  HEXMGFE + (p - 1) * VEXMGFE

/-- `WH2CAFE`, olivine.c 209. -/
def WH2CAFE : ℝ :=
  (219 / 10) * 1000

/-- `WV2CAFE`, olivine.c 215. -/
def WV2CAFE : ℝ :=
  0

/-- `W2CAFE`, olivine.c 269. -/
def W2CAFE (p : ℝ) : ℝ :=
  WH2CAFE + (p - 1) * WV2CAFE

/-- `F_CO`, olivine.c 221. -/
def F_CO : ℝ :=
  0 * 1000

/-- `HEXMGCO`, olivine.c 123. -/
def HEXMGCO : ℝ :=
  (-15) * 1000

/-- `VEXMGCO`, olivine.c 134. -/
def VEXMGCO : ℝ :=
  0

/-- `GEXMGCO`, olivine.c 226. -/
def GEXMGCO (p : ℝ) : ℝ :=
  HEXMGCO + (p - 1) * VEXMGCO

/-- `WH2CACO`, olivine.c 210. -/
def WH2CACO : ℝ :=
  30 * 1000

/-- `WV2CACO`, olivine.c 216. -/
def WV2CACO : ℝ :=
  0

/-- `W2CACO`, olivine.c 270. -/
def W2CACO (p : ℝ) : ℝ :=
  WH2CACO + (p - 1) * WV2CACO

/-- `F_NI`, olivine.c 222. -/
def F_NI : ℝ :=
  0 * 1000

/-- `HEXMGNI`, olivine.c 124. -/
def HEXMGNI : ℝ :=
  (-(79 / 4)) * 1000

/-- `VEXMGNI`, olivine.c 135. -/
def VEXMGNI : ℝ :=
  0

/-- `GEXMGNI`, olivine.c 227. -/
def GEXMGNI (p : ℝ) : ℝ :=
  HEXMGNI + (p - 1) * VEXMGNI

/-- `WH2CANI`, olivine.c 211. -/
def WH2CANI : ℝ :=
  40 * 1000

/-- `WV2CANI`, olivine.c 217. -/
def WV2CANI : ℝ :=
  0

/-- `W2CANI`, olivine.c 271. -/
def W2CANI (p : ℝ) : ℝ :=
  WH2CANI + (p - 1) * WV2CANI

/-- `GR5`, olivine.c 316-324. -/
def GR5 (p : ℝ) : ℝ :=
  -(W2CAMG p) - (1 / 4) * (F_MN + (GEXMGMN p) + (GXMGMN p) - 2 * (W2CAMN p) + 2 * (W2MGMN p) + (F_FE +
    (GEXMGFE p) + (GXMGFE p) - 2 * (W2CAFE p) + 2 * (W2MGFE p)) + (F_CO + (GEXMGCO p) + (GXMGCO p) - 2 * (W2CACO
    p) + 2 * (W2MGCO p)) + (F_NI + (GEXMGNI p) + (GXMGNI p) - 2 * (W2CANI p) + 2 * (W2MGNI p)))

/-- `HEXMNFE`, olivine.c 125. -/
def HEXMNFE : ℝ :=
  (-(59 / 5)) * 1000

/-- `VEXMNFE`, olivine.c 136. -/
def VEXMNFE : ℝ :=
  0

/-- `GEXMNFE`, olivine.c 228. -/
def GEXMNFE (p : ℝ) : ℝ :=
  HEXMNFE + (p - 1) * VEXMNFE

/-- `HEXMNCO`, olivine.c 126. -/
def HEXMNCO : ℝ :=
  0 * 1000

/-- `VEXMNCO`, olivine.c 137. -/
def VEXMNCO : ℝ :=
  0

/-- `GEXMNCO`, olivine.c 229. -/
def GEXMNCO (p : ℝ) : ℝ :=
  HEXMNCO + (p - 1) * VEXMNCO

/-- `HEXMNNI`, olivine.c 127. -/
def HEXMNNI : ℝ :=
  0 * 1000

/-- `VEXMNNI`, olivine.c 138. -/
def VEXMNNI : ℝ :=
  0

/-- `GEXMNNI`, olivine.c 230. -/
def GEXMNNI (p : ℝ) : ℝ :=
  HEXMNNI + (p - 1) * VEXMNNI

/-- `GS1`, olivine.c 331-337. -/
def GS1 (p : ℝ) : ℝ :=
  (1 / 4) * (GEXMGMN p + 3 * (W1MGMN p) - 3 * (W2MGMN p) - (GEXMGFE p - (W1MGFE p) + (W2MGFE p)) - (GEXMGCO p
    - (W1MGCO p) + (W2MGCO p)) - (GEXMGNI p - (W1MGNI p) + (W2MGNI p)) + (GEXMNFE p - (W1MNFE p) + (W2MNFE p)) +
    (GEXMNCO p - (W1MNCO p) + (W2MNCO p)) + (GEXMNNI p - (W1MNNI p) + (W2MNNI p)))

/-- `HEXFECO`, olivine.c 128. -/
def HEXFECO : ℝ :=
  0 * 1000

/-- `VEXFECO`, olivine.c 139. -/
def VEXFECO : ℝ :=
  0

/-- `GEXFECO`, olivine.c 231. -/
def GEXFECO (p : ℝ) : ℝ :=
  HEXFECO + (p - 1) * VEXFECO

/-- `HEXFENI`, olivine.c 129. -/
def HEXFENI : ℝ :=
  (-20) * 1000

/-- `VEXFENI`, olivine.c 140. -/
def VEXFENI : ℝ :=
  0

/-- `GEXFENI`, olivine.c 232. -/
def GEXFENI (p : ℝ) : ℝ :=
  HEXFENI + (p - 1) * VEXFENI

/-- `GS2`, olivine.c 338-344. -/
def GS2 (p : ℝ) : ℝ :=
  (1 / 4) * (-(GEXMGMN p) + (W1MGMN p) - (W2MGMN p) + (GEXMGFE p + 3 * (W1MGFE p) - 3 * (W2MGFE p)) - (GEXMGCO
    p - (W1MGCO p) + (W2MGCO p)) - (GEXMGNI p - (W1MGNI p) + (W2MGNI p)) - (GEXMNFE p + (W1MNFE p) - (W2MNFE p))
    + (GEXFECO p - (W1FECO p) + (W2FECO p)) + (GEXFENI p - (W1FENI p) + (W2FENI p)))

/-- `HEXCONI`, olivine.c 130. -/
def HEXCONI : ℝ :=
  0 * 1000

/-- `VEXCONI`, olivine.c 141. -/
def VEXCONI : ℝ :=
  0

/-- `GEXCONI`, olivine.c 233. -/
def GEXCONI (p : ℝ) : ℝ :=
  HEXCONI + (p - 1) * VEXCONI

/-- `GS3`, olivine.c 345-351. -/
def GS3 (p : ℝ) : ℝ :=
  (1 / 4) * (GEXMGMN p - (W1MGMN p) + (W2MGMN p) + (GEXMGFE p - (W1MGFE p) + (W2MGFE p)) - (GEXMGCO p + 3 *
    (W1MGCO p) - 3 * (W2MGCO p)) + (GEXMGNI p - (W1MGNI p) + (W2MGNI p)) + (GEXMNCO p + (W1MNCO p) - (W2MNCO p))
    + (GEXFECO p + (W1FECO p) - (W2FECO p)) - (GEXCONI p - (W1CONI p) + (W2CONI p)))

/-- `GS4`, olivine.c 352-358. -/
def GS4 (p : ℝ) : ℝ :=
  (1 / 4) * (GEXMGMN p - (W1MGMN p) + (W2MGMN p) + (GEXMGFE p - (W1MGFE p) + (W2MGFE p)) + (GEXMGCO p -
    (W1MGCO p) + (W2MGCO p)) - (GEXMGNI p + 3 * (W1MGNI p) - 3 * (W2MGNI p)) + (GEXMNNI p + (W1MNNI p) - (W2MNNI
    p)) + (GEXFENI p + (W1FENI p) - (W2FENI p)) + (GEXCONI p + (W1CONI p) - (W2CONI p)))

/-- `GR1R1`, olivine.c 359. -/
def GR1R1 (p : ℝ) : ℝ :=
  (-(1 / 4)) * (GXMGMN p + (W1MGMN p) + (W2MGMN p))

/-- `GR1R2`, olivine.c 360-362. -/
def GR1R2 (p : ℝ) : ℝ :=
  (1 / 4) * (GXMNFE p + (W1MNFE p) + (W2MNFE p) - (GXMGMN p + (W1MGMN p) + (W2MGMN p)) - (GXMGFE p + (W1MGFE
    p) + (W2MGFE p)))

/-- `GR1R3`, olivine.c 363-365. -/
def GR1R3 (p : ℝ) : ℝ :=
  (1 / 4) * (GXMNCO p + (W1MNCO p) + (W2MNCO p) - (GXMGMN p + (W1MGMN p) + (W2MGMN p)) - (GXMGCO p + (W1MGCO
    p) + (W2MGCO p)))

/-- `GR1R4`, olivine.c 366-368. -/
def GR1R4 (p : ℝ) : ℝ :=
  (1 / 4) * (GXMNNI p + (W1MNNI p) + (W2MNNI p) - (GXMGMN p + (W1MGMN p) + (W2MGMN p)) - (GXMGNI p + (W1MGNI
    p) + (W2MGNI p)))

/-- `GR1R5`, olivine.c 325-326. -/
def GR1R5 (p : ℝ) : ℝ :=
  (-(1 / 4)) * (F_MN + (GEXMGMN p) + (GXMGMN p) + 2 * (W2CAMG p) - 2 * (W2CAMN p) + 2 * (W2MGMN p))

/-- `GR1S1`, olivine.c 371. -/
def GR1S1 (p : ℝ) : ℝ :=
  (1 / 2) * (W1MGMN p - (W2MGMN p))

/-- `GR1S2`, olivine.c 372-374. -/
def GR1S2 (p : ℝ) : ℝ :=
  (1 / 4) * (-(GEXMGMN p) - (W1MGMN p) + (W2MGMN p) + (GEXMGFE p + (W1MGFE p) - (W2MGFE p)) - (GEXMNFE p +
    (W1MNFE p) - (W2MNFE p)))

/-- `GR1S3`, olivine.c 375-377. -/
def GR1S3 (p : ℝ) : ℝ :=
  (1 / 4) * (GEXMGMN p - (W1MGMN p) + (W2MGMN p) - (GEXMGCO p + (W1MGCO p) - (W2MGCO p)) + (GEXMNCO p +
    (W1MNCO p) - (W2MNCO p)))

/-- `GR1S4`, olivine.c 378-380. -/
def GR1S4 (p : ℝ) : ℝ :=
  (1 / 4) * (GEXMGMN p - (W1MGMN p) + (W2MGMN p) - (GEXMGNI p + (W1MGNI p) - (W2MGNI p)) + (GEXMNNI p +
    (W1MNNI p) - (W2MNNI p)))

/-- `GR2R2`, olivine.c 381. -/
def GR2R2 (p : ℝ) : ℝ :=
  (-(1 / 4)) * (GXMGFE p + (W1MGFE p) + (W2MGFE p))

/-- `GR2R3`, olivine.c 382-384. -/
def GR2R3 (p : ℝ) : ℝ :=
  (1 / 4) * (GXFECO p + (W1FECO p) + (W2FECO p) - (GXMGFE p + (W1MGFE p) + (W2MGFE p)) - (GXMGCO p + (W1MGCO
    p) + (W2MGCO p)))

/-- `GR2R4`, olivine.c 385-387. -/
def GR2R4 (p : ℝ) : ℝ :=
  (1 / 4) * (GXFENI p + (W1FENI p) + (W2FENI p) - (GXMGFE p + (W1MGFE p) + (W2MGFE p)) - (GXMGNI p + (W1MGNI
    p) + (W2MGNI p)))

/-- `GR2R5`, olivine.c 327-328. -/
def GR2R5 (p : ℝ) : ℝ :=
  (-(1 / 4)) * (F_FE + (GEXMGFE p) + (GXMGFE p) + 2 * (W2CAMG p) - 2 * (W2CAFE p) + 2 * (W2MGFE p))

/-- `GR2S1`, olivine.c 390-392. -/
def GR2S1 (p : ℝ) : ℝ :=
  (1 / 4) * (GEXMGMN p + (W1MGMN p) - (W2MGMN p) - (GEXMGFE p - (W1MGFE p) + (W2MGFE p)) + (GEXMNFE p -
    (W1MNFE p) + (W2MNFE p)))

/-- `GR2S2`, olivine.c 393. -/
def GR2S2 (p : ℝ) : ℝ :=
  (1 / 2) * (W1MGFE p - (W2MGFE p))

/-- `GR2S3`, olivine.c 394-396. -/
def GR2S3 (p : ℝ) : ℝ :=
  (1 / 4) * (GEXMGFE p - (W1MGFE p) + (W2MGFE p) - (GEXMGCO p + (W1MGCO p) - (W2MGCO p)) + (GEXFECO p +
    (W1FECO p) - (W2FECO p)))

/-- `GR2S4`, olivine.c 397-399. -/
def GR2S4 (p : ℝ) : ℝ :=
  (1 / 4) * (GEXMGFE p - (W1MGFE p) + (W2MGFE p) - (GEXMGNI p + (W1MGNI p) - (W2MGNI p)) + (GEXFENI p +
    (W1FENI p) - (W2FENI p)))

/-- `GR3R3`, olivine.c 400. -/
def GR3R3 (p : ℝ) : ℝ :=
  (-(1 / 4)) * (GXMGCO p + (W1MGCO p) + (W2MGCO p))

/-- `GR3R4`, olivine.c 401-403. -/
def GR3R4 (p : ℝ) : ℝ :=
  (1 / 4) * (GXCONI p + (W1CONI p) + (W2CONI p) - (GXMGCO p + (W1MGCO p) + (W2MGCO p)) - (GXMGNI p + (W1MGNI
    p) + (W2MGNI p)))

/-- `GR3R5`, olivine.c 329-330. -/
def GR3R5 (p : ℝ) : ℝ :=
  (-(1 / 4)) * (F_CO + (GEXMGCO p) + (GXMGCO p) + 2 * (W2CAMG p) - 2 * (W2CACO p) + 2 * (W2MGCO p))

/-- `GR3S1`, olivine.c 406-408. -/
def GR3S1 (p : ℝ) : ℝ :=
  (1 / 4) * (GEXMGMN p + (W1MGMN p) - (W2MGMN p) - (GEXMGCO p - (W1MGCO p) + (W2MGCO p)) + (GEXMNCO p -
    (W1MNCO p) + (W2MNCO p)))

/-- `GR3S2`, olivine.c 409-411. -/
def GR3S2 (p : ℝ) : ℝ :=
  (1 / 4) * (GEXMGFE p + (W1MGFE p) - (W2MGFE p) - (GEXMGCO p - (W1MGCO p) + (W2MGCO p)) + (GEXFECO p -
    (W1FECO p) + (W2FECO p)))

/-- `GR3S3`, olivine.c 412. -/
def GR3S3 (p : ℝ) : ℝ :=
  (1 / 2) * (-(W1MGCO p) + (W2MGCO p))

/-- `GR3S4`, olivine.c 413-415. -/
def GR3S4 (p : ℝ) : ℝ :=
  (1 / 4) * (GEXMGCO p + (W1MGCO p) - (W2MGCO p) - (GEXMGNI p - (W1MGNI p) + (W2MGNI p)) + (GEXCONI p -
    (W1CONI p) + (W2CONI p)))

/-- `GR4R4`, olivine.c 416. -/
def GR4R4 (p : ℝ) : ℝ :=
  (-(1 / 4)) * (GXMGNI p + (W1MGNI p) + (W2MGNI p))

/-- `GR4R5`, olivine.c 417-418. -/
def GR4R5 (p : ℝ) : ℝ :=
  (-(1 / 4)) * (F_NI + (GEXMGNI p) + (GXMGNI p) + 2 * (W2CAMG p) - 2 * (W2CANI p) + 2 * (W2MGNI p))

/-- `GR4S1`, olivine.c 419-421. -/
def GR4S1 (p : ℝ) : ℝ :=
  (1 / 4) * (GEXMGMN p + (W1MGMN p) - (W2MGMN p) - (GEXMGNI p - (W1MGNI p) + (W2MGNI p)) + (GEXMNNI p -
    (W1MNNI p) + (W2MNNI p)))

/-- `GR4S2`, olivine.c 422-424. -/
def GR4S2 (p : ℝ) : ℝ :=
  (1 / 4) * (GEXMGFE p + (W1MGFE p) - (W2MGFE p) - (GEXMGNI p - (W1MGNI p) + (W2MGNI p)) + (GEXFENI p -
    (W1FENI p) + (W2FENI p)))

/-- `GR4S3`, olivine.c 425-427. -/
def GR4S3 (p : ℝ) : ℝ :=
  (1 / 4) * (-(GEXMGCO p) + (W1MGCO p) - (W2MGCO p) + (GEXMGNI p - (W1MGNI p) + (W2MGNI p)) - (GEXCONI p -
    (W1CONI p) + (W2CONI p)))

/-- `GR4S4`, olivine.c 428. -/
def GR4S4 (p : ℝ) : ℝ :=
  (1 / 2) * (-(W1MGNI p) + (W2MGNI p))

/-- `GR5R5`, olivine.c 429. -/
def GR5R5 (p : ℝ) : ℝ :=
  (-1) * (W2CAMG p)

/-- `GR5S1`, olivine.c 430-431. -/
def GR5S1 (p : ℝ) : ℝ :=
  (1 / 4) * (F_MN + (GEXMGMN p) + (GXMGMN p) - 2 * (W2CAMG p) + 2 * (W2CAMN p) - 2 * (W2MGMN p))

/-- `GR5S2`, olivine.c 432-433. -/
def GR5S2 (p : ℝ) : ℝ :=
  (1 / 4) * (F_FE + (GEXMGFE p) + (GXMGFE p) - 2 * (W2CAMG p) + 2 * (W2CAFE p) - 2 * (W2MGFE p))

/-- `GR5S3`, olivine.c 434-435. -/
def GR5S3 (p : ℝ) : ℝ :=
  (-(1 / 4)) * (F_CO + (GEXMGCO p) + (GXMGCO p) - 2 * (W2CAMG p) + 2 * (W2CACO p) - 2 * (W2MGCO p))

/-- `GR5S4`, olivine.c 436-437. -/
def GR5S4 (p : ℝ) : ℝ :=
  (-(1 / 4)) * (F_NI + (GEXMGNI p) + (GXMGNI p) - 2 * (W2CAMG p) + 2 * (W2CANI p) - 2 * (W2MGNI p))

/-- `GS1S1`, olivine.c 438. -/
def GS1S1 (p : ℝ) : ℝ :=
  (1 / 4) * (GXMGMN p - (W1MGMN p) - (W2MGMN p))

/-- `GS1S2`, olivine.c 439-441. -/
def GS1S2 (p : ℝ) : ℝ :=
  (1 / 4) * (GXMGMN p - (W1MGMN p) - (W2MGMN p) + (GXMGFE p - (W1MGFE p) - (W2MGFE p)) - (GXMNFE p - (W1MNFE
    p) - (W2MNFE p)))

/-- `GS1S3`, olivine.c 442-444. -/
def GS1S3 (p : ℝ) : ℝ :=
  (1 / 4) * (-(GXMGMN p - (W1MGMN p) - (W2MGMN p)) - (GXMGCO p - (W1MGCO p) - (W2MGCO p)) + (GXMNCO p -
    (W1MNCO p) - (W2MNCO p)))

/-- `GS1S4`, olivine.c 445-447. -/
def GS1S4 (p : ℝ) : ℝ :=
  (1 / 4) * (-(GXMGMN p - (W1MGMN p) - (W2MGMN p)) - (GXMGNI p - (W1MGNI p) - (W2MGNI p)) + (GXMNNI p -
    (W1MNNI p) - (W2MNNI p)))

/-- `GS2S2`, olivine.c 448. -/
def GS2S2 (p : ℝ) : ℝ :=
  (1 / 4) * (GXMGFE p - (W1MGFE p) - (W2MGFE p))

/-- `GS2S3`, olivine.c 449-451. -/
def GS2S3 (p : ℝ) : ℝ :=
  (1 / 4) * (-(GXMGFE p - (W1MGFE p) - (W2MGFE p)) - (GXMGCO p - (W1MGCO p) - (W2MGCO p)) + (GXFECO p -
    (W1FECO p) - (W2FECO p)))

/-- `GS2S4`, olivine.c 452-454. -/
def GS2S4 (p : ℝ) : ℝ :=
  (1 / 4) * (-(GXMGFE p - (W1MGFE p) - (W2MGFE p)) - (GXMGNI p - (W1MGNI p) - (W2MGNI p)) + (GXFENI p -
    (W1FENI p) - (W2FENI p)))

/-- `GS3S3`, olivine.c 455. -/
def GS3S3 (p : ℝ) : ℝ :=
  (1 / 4) * (GXMGCO p - (W1MGCO p) - (W2MGCO p))

/-- `GS3S4`, olivine.c 456-458. -/
def GS3S4 (p : ℝ) : ℝ :=
  (1 / 4) * (GXMGCO p - (W1MGCO p) - (W2MGCO p) + (GXMGNI p - (W1MGNI p) - (W2MGNI p)) - (GXCONI p - (W1CONI
    p) - (W2CONI p)))

/-- `GS4S4`, olivine.c 459. -/
def GS4S4 (p : ℝ) : ℝ :=
  (1 / 4) * (GXMGNI p - (W1MGNI p) - (W2MGNI p))

/-- `H`, olivine.c 955-973. -/
def H (p r0 r1 r2 r3 r4 s0 s1 s2 s3 : ℝ) : ℝ :=
  G0 p + (GR1 p) * r0 + (GR2 p) * r1 + (GR3 p) * r2 + (GR4 p) * r3 + (GR5 p) * r4 + (GS1 p) * s0 + (GS2 p) *
    s1 + (GS3 p) * s2 + (GS4 p) * s3 + (GR1R1 p) * r0 * r0 + (GR1R2 p) * r0 * r1 + (GR1R3 p) * r0 * r2 + (GR1R4
    p) * r0 * r3 + (GR1R5 p) * r0 * r4 + (GR1S1 p) * r0 * s0 + (GR1S2 p) * r0 * s1 + (GR1S3 p) * r0 * s2 +
    (GR1S4 p) * r0 * s3 + (GR2R2 p) * r1 * r1 + (GR2R3 p) * r1 * r2 + (GR2R4 p) * r1 * r3 + (GR2R5 p) * r1 * r4
    + (GR2S1 p) * r1 * s0 + (GR2S2 p) * r1 * s1 + (GR2S3 p) * r1 * s2 + (GR2S4 p) * r1 * s3 + (GR3R3 p) * r2 *
    r2 + (GR3R4 p) * r2 * r3 + (GR3R5 p) * r2 * r4 + (GR3S1 p) * r2 * s0 + (GR3S2 p) * r2 * s1 + (GR3S3 p) * r2
    * s2 + (GR3S4 p) * r2 * s3 + (GR4R4 p) * r3 * r3 + (GR4R5 p) * r3 * r4 + (GR4S1 p) * r3 * s0 + (GR4S2 p) *
    r3 * s1 + (GR4S3 p) * r3 * s2 + (GR4S4 p) * r3 * s3 + (GR5R5 p) * r4 * r4 + (GR5S1 p) * r4 * s0 + (GR5S2 p)
    * r4 * s1 + (GR5S3 p) * r4 * s2 + (GR5S4 p) * r4 * s3 + (GS1S1 p) * s0 * s0 + (GS1S2 p) * s0 * s1 + (GS1S3
    p) * s0 * s2 + (GS1S4 p) * s0 * s3 + (GS2S2 p) * s1 * s1 + (GS2S3 p) * s1 * s2 + (GS2S4 p) * s1 * s3 +
    (GS3S3 p) * s2 * s2 + (GS3S4 p) * s2 * s3 + (GS4S4 p) * s3 * s3

/-- `V0`, olivine.c 462-471. -/
def V0 : ℝ :=
  (1 / 4) * (VXMNFE + WV1MNFE + WV2MNFE + (VXMNCO + WV1MNCO + WV2MNCO) + (VXMNNI + WV1MNNI + WV2MNNI) +
    (VXFECO + WV1FECO + WV2FECO) + (VXFENI + WV1FENI + WV2FENI) + (VXCONI + WV1CONI + WV2CONI) - 2 * (VXMGMN +
    WV1MGMN + WV2MGMN) - 2 * (VXMGFE + WV1MGFE + WV2MGFE) - 2 * (VXMGCO + WV1MGCO + WV2MGCO) - 2 * (VXMGNI +
    WV1MGNI + WV2MGNI))

/-- `VR1`, olivine.c 472-478. -/
def VR1 : ℝ :=
  (1 / 4) * ((-3) * (VXMGMN + WV1MGMN + WV2MGMN) - (VXMGFE + WV1MGFE + WV2MGFE) - (VXMGCO + WV1MGCO + WV2MGCO)
    - (VXMGNI + WV1MGNI + WV2MGNI) + (VXMNFE + WV1MNFE + WV2MNFE) + (VXMNCO + WV1MNCO + WV2MNCO) + (VXMNNI +
    WV1MNNI + WV2MNNI))

/-- `VR2`, olivine.c 479-485. -/
def VR2 : ℝ :=
  (1 / 4) * (-(VXMGMN + WV1MGMN + WV2MGMN) - 3 * (VXMGFE + WV1MGFE + WV2MGFE) - (VXMGCO + WV1MGCO + WV2MGCO) -
    (VXMGNI + WV1MGNI + WV2MGNI) + (VXMNFE + WV1MNFE + WV2MNFE) + (VXFECO + WV1FECO + WV2FECO) + (VXFENI +
    WV1FENI + WV2FENI))

/-- `VR3`, olivine.c 486-492. -/
def VR3 : ℝ :=
  (1 / 4) * (-(VXMGMN + WV1MGMN + WV2MGMN) - (VXMGFE + WV1MGFE + WV2MGFE) - 3 * (VXMGCO + WV1MGCO + WV2MGCO) -
    (VXMGNI + WV1MGNI + WV2MGNI) + (VXMNCO + WV1MNCO + WV2MNCO) + (VXFECO + WV1FECO + WV2FECO) + (VXCONI +
    WV1CONI + WV2CONI))

/-- `VR4`, olivine.c 493-499. -/
def VR4 : ℝ :=
  (1 / 4) * (-(VXMGMN + WV1MGMN + WV2MGMN) - (VXMGFE + WV1MGFE + WV2MGFE) - (VXMGCO + WV1MGCO + WV2MGCO) - 3 *
    (VXMGNI + WV1MGNI + WV2MGNI) + (VXMNNI + WV1MNNI + WV2MNNI) + (VXFENI + WV1FENI + WV2FENI) + (VXCONI +
    WV1CONI + WV2CONI))

/-- `VR5`, olivine.c 500-508. -/
def VR5 : ℝ :=
  -WV2CAMG - (1 / 4) * (VEXMGMN + VXMGMN - 2 * WV2CAMN + 2 * WV2MGMN + (VEXMGFE + VXMGFE - 2 * WV2CAFE + 2 *
    WV2MGFE) + (VEXMGCO + VXMGCO - 2 * WV2CACO + 2 * WV2MGCO) + (VEXMGNI + VXMGNI - 2 * WV2CANI + 2 * WV2MGNI))

/-- `VS1`, olivine.c 509-515. -/
def VS1 : ℝ :=
  (1 / 4) * (VEXMGMN + 3 * WV1MGMN - 3 * WV2MGMN - (VEXMGFE - WV1MGFE + WV2MGFE) - (VEXMGCO - WV1MGCO +
    WV2MGCO) - (VEXMGNI - WV1MGNI + WV2MGNI) + (VEXMNFE - WV1MNFE + WV2MNFE) + (VEXMNCO - WV1MNCO + WV2MNCO) +
    (VEXMNNI - WV1MNNI + WV2MNNI))

/-- `VS2`, olivine.c 516-522. -/
def VS2 : ℝ :=
  (1 / 4) * (-VEXMGMN + WV1MGMN - WV2MGMN + (VEXMGFE + 3 * WV1MGFE - 3 * WV2MGFE) - (VEXMGCO - WV1MGCO +
    WV2MGCO) - (VEXMGNI - WV1MGNI + WV2MGNI) - (VEXMNFE + WV1MNFE - WV2MNFE) + (VEXFECO - WV1FECO + WV2FECO) +
    (VEXFENI - WV1FENI + WV2FENI))

/-- `VS3`, olivine.c 523-529. -/
def VS3 : ℝ :=
  (1 / 4) * (VEXMGMN - WV1MGMN + WV2MGMN + (VEXMGFE - WV1MGFE + WV2MGFE) - (VEXMGCO + 3 * WV1MGCO - 3 *
    WV2MGCO) + (VEXMGNI - WV1MGNI + WV2MGNI) + (VEXMNCO + WV1MNCO - WV2MNCO) + (VEXFECO + WV1FECO - WV2FECO) -
    (VEXCONI - WV1CONI + WV2CONI))

/-- `VS4`, olivine.c 530-536. -/
def VS4 : ℝ :=
  (1 / 4) * (VEXMGMN - WV1MGMN + WV2MGMN + (VEXMGFE - WV1MGFE + WV2MGFE) + (VEXMGCO - WV1MGCO + WV2MGCO) -
    (VEXMGNI + 3 * WV1MGNI - 3 * WV2MGNI) + (VEXMNNI + WV1MNNI - WV2MNNI) + (VEXFENI + WV1FENI - WV2FENI) +
    (VEXCONI + WV1CONI - WV2CONI))

/-- `VR1R1`, olivine.c 537. -/
def VR1R1 : ℝ :=
  (-(1 / 4)) * (VXMGMN + WV1MGMN + WV2MGMN)

/-- `VR1R2`, olivine.c 538-540. -/
def VR1R2 : ℝ :=
  (1 / 4) * (VXMNFE + WV1MNFE + WV2MNFE - (VXMGMN + WV1MGMN + WV2MGMN) - (VXMGFE + WV1MGFE + WV2MGFE))

/-- `VR1R3`, olivine.c 541-543. -/
def VR1R3 : ℝ :=
  (1 / 4) * (VXMNCO + WV1MNCO + WV2MNCO - (VXMGMN + WV1MGMN + WV2MGMN) - (VXMGCO + WV1MGCO + WV2MGCO))

/-- `VR1R4`, olivine.c 544-546. -/
def VR1R4 : ℝ :=
  (1 / 4) * (VXMNNI + WV1MNNI + WV2MNNI - (VXMGMN + WV1MGMN + WV2MGMN) - (VXMGNI + WV1MGNI + WV2MGNI))

/-- `VR1R5`, olivine.c 547-548. -/
def VR1R5 : ℝ :=
  (-(1 / 4)) * (VEXMGMN + VXMGMN + 2 * WV2CAMG - 2 * WV2CAMN + 2 * WV2MGMN)

/-- `VR1S1`, olivine.c 549. -/
def VR1S1 : ℝ :=
  (1 / 2) * (WV1MGMN - WV2MGMN)

/-- `VR1S2`, olivine.c 550-552. -/
def VR1S2 : ℝ :=
  (1 / 4) * (-VEXMGMN - WV1MGMN + WV2MGMN + (VEXMGFE + WV1MGFE - WV2MGFE) - (VEXMNFE + WV1MNFE - WV2MNFE))

/-- `VR1S3`, olivine.c 553-555. -/
def VR1S3 : ℝ :=
  (1 / 4) * (VEXMGMN - WV1MGMN + WV2MGMN - (VEXMGCO + WV1MGCO - WV2MGCO) + (VEXMNCO + WV1MNCO - WV2MNCO))

/-- `VR1S4`, olivine.c 556-558. -/
def VR1S4 : ℝ :=
  (1 / 4) * (VEXMGMN - WV1MGMN + WV2MGMN - (VEXMGNI + WV1MGNI - WV2MGNI) + (VEXMNNI + WV1MNNI - WV2MNNI))

/-- `VR2R2`, olivine.c 559. -/
def VR2R2 : ℝ :=
  (-(1 / 4)) * (VXMGFE + WV1MGFE + WV2MGFE)

/-- `VR2R3`, olivine.c 560-562. -/
def VR2R3 : ℝ :=
  (1 / 4) * (VXFECO + WV1FECO + WV2FECO - (VXMGFE + WV1MGFE + WV2MGFE) - (VXMGCO + WV1MGCO + WV2MGCO))

/-- `VR2R4`, olivine.c 563-565. -/
def VR2R4 : ℝ :=
  (1 / 4) * (VXFENI + WV1FENI + WV2FENI - (VXMGFE + WV1MGFE + WV2MGFE) - (VXMGNI + WV1MGNI + WV2MGNI))

/-- `VR2R5`, olivine.c 566-567. -/
def VR2R5 : ℝ :=
  (-(1 / 4)) * (VEXMGFE + VXMGFE + 2 * WV2CAMG - 2 * WV2CAFE + 2 * WV2MGFE)

/-- `VR2S1`, olivine.c 568-570. -/
def VR2S1 : ℝ :=
  (1 / 4) * (VEXMGMN + WV1MGMN - WV2MGMN - (VEXMGFE - WV1MGFE + WV2MGFE) + (VEXMNFE - WV1MNFE + WV2MNFE))

/-- `VR2S2`, olivine.c 571. -/
def VR2S2 : ℝ :=
  (1 / 2) * (WV1MGFE - WV2MGFE)

/-- `VR2S3`, olivine.c 572-574. -/
def VR2S3 : ℝ :=
  (1 / 4) * (VEXMGFE - WV1MGFE + WV2MGFE - (VEXMGCO + WV1MGCO - WV2MGCO) + (VEXFECO + WV1FECO - WV2FECO))

/-- `VR2S4`, olivine.c 575-577. -/
def VR2S4 : ℝ :=
  (1 / 4) * (VEXMGFE - WV1MGFE + WV2MGFE - (VEXMGNI + WV1MGNI - WV2MGNI) + (VEXFENI + WV1FENI - WV2FENI))

/-- `VR3R3`, olivine.c 578. -/
def VR3R3 : ℝ :=
  (-(1 / 4)) * (VXMGCO + WV1MGCO + WV2MGCO)

/-- `VR3R4`, olivine.c 579-581. -/
def VR3R4 : ℝ :=
  (1 / 4) * (VXCONI + WV1CONI + WV2CONI - (VXMGCO + WV1MGCO + WV2MGCO) - (VXMGNI + WV1MGNI + WV2MGNI))

/-- `VR3R5`, olivine.c 582-583. -/
def VR3R5 : ℝ :=
  (-(1 / 4)) * (VEXMGCO + VXMGCO + 2 * WV2CAMG - 2 * WV2CACO + 2 * WV2MGCO)

/-- `VR3S1`, olivine.c 584-586. -/
def VR3S1 : ℝ :=
  (1 / 4) * (VEXMGMN + WV1MGMN - WV2MGMN - (VEXMGCO - WV1MGCO + WV2MGCO) + (VEXMNCO - WV1MNCO + WV2MNCO))

/-- `VR3S2`, olivine.c 587-589. -/
def VR3S2 : ℝ :=
  (1 / 4) * (VEXMGFE + WV1MGFE - WV2MGFE - (VEXMGCO - WV1MGCO + WV2MGCO) + (VEXFECO - WV1FECO + WV2FECO))

/-- `VR3S3`, olivine.c 590. -/
def VR3S3 : ℝ :=
  (1 / 2) * (-WV1MGCO + WV2MGCO)

/-- `VR3S4`, olivine.c 591-593. -/
def VR3S4 : ℝ :=
  (1 / 4) * (VEXMGCO + WV1MGCO - WV2MGCO - (VEXMGNI - WV1MGNI + WV2MGNI) + (VEXCONI - WV1CONI + WV2CONI))

/-- `VR4R4`, olivine.c 594. -/
def VR4R4 : ℝ :=
  (-(1 / 4)) * (VXMGNI + WV1MGNI + WV2MGNI)

/-- `VR4R5`, olivine.c 595-596. -/
def VR4R5 : ℝ :=
  (-(1 / 4)) * (VEXMGNI + VXMGNI + 2 * WV2CAMG - 2 * WV2CANI + 2 * WV2MGNI)

/-- `VR4S1`, olivine.c 597-599. -/
def VR4S1 : ℝ :=
  (1 / 4) * (VEXMGMN + WV1MGMN - WV2MGMN - (VEXMGNI - WV1MGNI + WV2MGNI) + (VEXMNNI - WV1MNNI + WV2MNNI))

/-- `VR4S2`, olivine.c 600-602. -/
def VR4S2 : ℝ :=
  (1 / 4) * (VEXMGFE + WV1MGFE - WV2MGFE - (VEXMGNI - WV1MGNI + WV2MGNI) + (VEXFENI - WV1FENI + WV2FENI))

/-- `VR4S3`, olivine.c 603-605. -/
def VR4S3 : ℝ :=
  (1 / 4) * (-VEXMGCO + WV1MGCO - WV2MGCO + (VEXMGNI - WV1MGNI + WV2MGNI) - (VEXCONI - WV1CONI + WV2CONI))

/-- `VR4S4`, olivine.c 606. -/
def VR4S4 : ℝ :=
  (1 / 2) * (-WV1MGNI + WV2MGNI)

/-- `VR5R5`, olivine.c 607. -/
def VR5R5 : ℝ :=
  -WV2CAMG

/-- `VR5S1`, olivine.c 608-609. -/
def VR5S1 : ℝ :=
  (1 / 4) * (VEXMGMN + VXMGMN - 2 * WV2CAMG + 2 * WV2CAMN - 2 * WV2MGMN)

/-- `VR5S2`, olivine.c 610-611. -/
def VR5S2 : ℝ :=
  (1 / 4) * (VEXMGFE + VXMGFE - 2 * WV2CAMG + 2 * WV2CAFE - 2 * WV2MGFE)

/-- `VR5S3`, olivine.c 612-613. -/
def VR5S3 : ℝ :=
  (-(1 / 4)) * (VEXMGCO + VXMGCO - 2 * WV2CAMG + 2 * WV2CACO - 2 * WV2MGCO)

/-- `VR5S4`, olivine.c 614-615. -/
def VR5S4 : ℝ :=
  (-(1 / 4)) * (VEXMGNI + VXMGNI - 2 * WV2CAMG + 2 * WV2CANI - 2 * WV2MGNI)

/-- `VS1S1`, olivine.c 616. -/
def VS1S1 : ℝ :=
  (1 / 4) * (VXMGMN - WV1MGMN - WV2MGMN)

/-- `VS1S2`, olivine.c 617-619. -/
def VS1S2 : ℝ :=
  (1 / 4) * (VXMGMN - WV1MGMN - WV2MGMN + (VXMGFE - WV1MGFE - WV2MGFE) - (VXMNFE - WV1MNFE - WV2MNFE))

/-- `VS1S3`, olivine.c 620-622. -/
def VS1S3 : ℝ :=
  (1 / 4) * (-(VXMGMN - WV1MGMN - WV2MGMN) - (VXMGCO - WV1MGCO - WV2MGCO) + (VXMNCO - WV1MNCO - WV2MNCO))

/-- `VS1S4`, olivine.c 623-625. -/
def VS1S4 : ℝ :=
  (1 / 4) * (-(VXMGMN - WV1MGMN - WV2MGMN) - (VXMGNI - WV1MGNI - WV2MGNI) + (VXMNNI - WV1MNNI - WV2MNNI))

/-- `VS2S2`, olivine.c 626. -/
def VS2S2 : ℝ :=
  (1 / 4) * (VXMGFE - WV1MGFE - WV2MGFE)

/-- `VS2S3`, olivine.c 627-629. -/
def VS2S3 : ℝ :=
  (1 / 4) * (-(VXMGFE - WV1MGFE - WV2MGFE) - (VXMGCO - WV1MGCO - WV2MGCO) + (VXFECO - WV1FECO - WV2FECO))

/-- `VS2S4`, olivine.c 630-632. -/
def VS2S4 : ℝ :=
  (1 / 4) * (-(VXMGFE - WV1MGFE - WV2MGFE) - (VXMGNI - WV1MGNI - WV2MGNI) + (VXFENI - WV1FENI - WV2FENI))

/-- `VS3S3`, olivine.c 633. -/
def VS3S3 : ℝ :=
  (1 / 4) * (VXMGCO - WV1MGCO - WV2MGCO)

/-- `VS3S4`, olivine.c 634-636. -/
def VS3S4 : ℝ :=
  (1 / 4) * (VXMGCO - WV1MGCO - WV2MGCO + (VXMGNI - WV1MGNI - WV2MGNI) - (VXCONI - WV1CONI - WV2CONI))

/-- `VS4S4`, olivine.c 637. -/
def VS4S4 : ℝ :=
  (1 / 4) * (VXMGNI - WV1MGNI - WV2MGNI)

/-- `V`, olivine.c 974-992. -/
def V (r0 r1 r2 r3 r4 s0 s1 s2 s3 : ℝ) : ℝ :=
  V0 + VR1 * r0 + VR2 * r1 + VR3 * r2 + VR4 * r3 + VR5 * r4 + VS1 * s0 + VS2 * s1 + VS3 * s2 + VS4 * s3 +
    VR1R1 * r0 * r0 + VR1R2 * r0 * r1 + VR1R3 * r0 * r2 + VR1R4 * r0 * r3 + VR1R5 * r0 * r4 + VR1S1 * r0 * s0 +
    VR1S2 * r0 * s1 + VR1S3 * r0 * s2 + VR1S4 * r0 * s3 + VR2R2 * r1 * r1 + VR2R3 * r1 * r2 + VR2R4 * r1 * r3 +
    VR2R5 * r1 * r4 + VR2S1 * r1 * s0 + VR2S2 * r1 * s1 + VR2S3 * r1 * s2 + VR2S4 * r1 * s3 + VR3R3 * r2 * r2 +
    VR3R4 * r2 * r3 + VR3R5 * r2 * r4 + VR3S1 * r2 * s0 + VR3S2 * r2 * s1 + VR3S3 * r2 * s2 + VR3S4 * r2 * s3 +
    VR4R4 * r3 * r3 + VR4R5 * r3 * r4 + VR4S1 * r3 * s0 + VR4S2 * r3 * s1 + VR4S3 * r3 * s2 + VR4S4 * r3 * s3 +
    VR5R5 * r4 * r4 + VR5S1 * r4 * s0 + VR5S2 * r4 * s1 + VR5S3 * r4 * s2 + VR5S4 * r4 * s3 + VS1S1 * s0 * s0 +
    VS1S2 * s0 * s1 + VS1S3 * s0 * s2 + VS1S4 * s0 * s3 + VS2S2 * s1 * s1 + VS2S3 * s1 * s2 + VS2S4 * s1 * s3 +
    VS3S3 * s2 * s2 + VS3S4 * s2 * s3 + VS4S4 * s3 * s3

/-- `G`, olivine.c 994. -/
def G (t p r0 r1 r2 r3 r4 s0 s1 s2 s3 xm1mn xm2mn xm1fe xm2fe xm1co xm2co xm1ni xm2ni xm2ca xm1mg xm2mg : ℝ) : ℝ :=
  H p r0 r1 r2 r3 r4 s0 s1 s2 s3 - t * (S xm1mn xm2mn xm1fe xm2fe xm1co xm2co xm1ni xm2ni xm2ca xm1mg xm2mg)

/-- `DGDR0`, olivine.c 998-1001. -/
def DGDR0 (t p r0 r1 r2 r3 r4 s0 s1 s2 s3 xm1mn xm2mn xm1mg xm2mg : ℝ) : ℝ :=
  GR1 p + 2 * (GR1R1 p) * r0 + (GR1R2 p) * r1 + (GR1R3 p) * r2 + (GR1R4 p) * r3 + (GR1R5 p) * r4 + (GR1S1 p) *
    s0 + (GR1S2 p) * s1 + (GR1S3 p) * s2 + (GR1S4 p) * s3 + (1 / 2) * R * t * Real.log (xm1mn * xm2mn / xm1mg /
    xm2mg)

/-- `DGDR1`, olivine.c 1002-1005. -/
def DGDR1 (t p r0 r1 r2 r3 r4 s0 s1 s2 s3 xm1fe xm2fe xm1mg xm2mg : ℝ) : ℝ :=
  GR2 p + 2 * (GR2R2 p) * r1 + (GR1R2 p) * r0 + (GR2R3 p) * r2 + (GR2R4 p) * r3 + (GR2R5 p) * r4 + (GR2S1 p) *
    s0 + (GR2S2 p) * s1 + (GR2S3 p) * s2 + (GR2S4 p) * s3 + (1 / 2) * R * t * Real.log (xm1fe * xm2fe / xm1mg /
    xm2mg)

/-- `DGDR2`, olivine.c 1006-1009. -/
def DGDR2 (t p r0 r1 r2 r3 r4 s0 s1 s2 s3 xm1co xm2co xm1mg xm2mg : ℝ) : ℝ :=
  GR3 p + 2 * (GR3R3 p) * r2 + (GR1R3 p) * r0 + (GR2R3 p) * r1 + (GR3R4 p) * r3 + (GR3R5 p) * r4 + (GR3S1 p) *
    s0 + (GR3S2 p) * s1 + (GR3S3 p) * s2 + (GR3S4 p) * s3 + (1 / 2) * R * t * Real.log (xm1co * xm2co / xm1mg /
    xm2mg)

/-- `DGDR3`, olivine.c 1010-1013. -/
def DGDR3 (t p r0 r1 r2 r3 r4 s0 s1 s2 s3 xm1ni xm2ni xm1mg xm2mg : ℝ) : ℝ :=
  GR4 p + 2 * (GR4R4 p) * r3 + (GR1R4 p) * r0 + (GR2R4 p) * r1 + (GR3R4 p) * r2 + (GR4R5 p) * r4 + (GR4S1 p) *
    s0 + (GR4S2 p) * s1 + (GR4S3 p) * s2 + (GR4S4 p) * s3 + (1 / 2) * R * t * Real.log (xm1ni * xm2ni / xm1mg /
    xm2mg)

/-- `DGDR4`, olivine.c 1014-1017. -/
def DGDR4 (t p r0 r1 r2 r3 r4 s0 s1 s2 s3 xm2ca xm2mg : ℝ) : ℝ :=
  GR5 p + 2 * (GR5R5 p) * r4 + (GR1R5 p) * r0 + (GR2R5 p) * r1 + (GR3R5 p) * r2 + (GR4R5 p) * r3 + (GR5S1 p) *
    s0 + (GR5S2 p) * s1 + (GR5S3 p) * s2 + (GR5S4 p) * s3 + R * t * Real.log (xm2ca / xm2mg)

/-- `DGDS0`, olivine.c 1018-1021. -/
def DGDS0 (t p r0 r1 r2 r3 r4 s0 s1 s2 s3 xm1mn xm2mn xm1mg xm2mg : ℝ) : ℝ :=
  GS1 p + 2 * (GS1S1 p) * s0 + (GR1S1 p) * r0 + (GR2S1 p) * r1 + (GR3S1 p) * r2 + (GR4S1 p) * r3 + (GR5S1 p) *
    r4 + (GS1S2 p) * s1 + (GS1S3 p) * s2 + (GS1S4 p) * s3 + (1 / 2) * R * t * Real.log (xm2mn * xm1mg / xm1mn /
    xm2mg)

/-- `DGDS1`, olivine.c 1022-1025. -/
def DGDS1 (t p r0 r1 r2 r3 r4 s0 s1 s2 s3 xm1fe xm2fe xm1mg xm2mg : ℝ) : ℝ :=
  GS2 p + 2 * (GS2S2 p) * s1 + (GR1S2 p) * r0 + (GR2S2 p) * r1 + (GR3S2 p) * r2 + (GR4S2 p) * r3 + (GR5S2 p) *
    r4 + (GS1S2 p) * s0 + (GS2S3 p) * s2 + (GS2S4 p) * s3 + (1 / 2) * R * t * Real.log (xm2fe * xm1mg / xm1fe /
    xm2mg)

/-- `DGDS2`, olivine.c 1026-1029. -/
def DGDS2 (t p r0 r1 r2 r3 r4 s0 s1 s2 s3 xm1co xm2co xm1mg xm2mg : ℝ) : ℝ :=
  GS3 p + 2 * (GS3S3 p) * s2 + (GR1S3 p) * r0 + (GR2S3 p) * r1 + (GR3S3 p) * r2 + (GR4S3 p) * r3 + (GR5S3 p) *
    r4 + (GS1S3 p) * s0 + (GS2S3 p) * s1 + (GS3S4 p) * s3 + (1 / 2) * R * t * Real.log (xm1co * xm2mg / xm2co /
    xm1mg)

/-- `DGDS3`, olivine.c 1030-1033. -/
def DGDS3 (t p r0 r1 r2 r3 r4 s0 s1 s2 s3 xm1ni xm2ni xm1mg xm2mg : ℝ) : ℝ :=
  GS4 p + 2 * (GS4S4 p) * s3 + (GR1S4 p) * r0 + (GR2S4 p) * r1 + (GR3S4 p) * r2 + (GR4S4 p) * r3 + (GR5S4 p) *
    r4 + (GS1S4 p) * s0 + (GS2S4 p) * s1 + (GS3S4 p) * s2 + (1 / 2) * R * t * Real.log (xm1ni * xm2mg / xm2ni /
    xm1mg)

/-- The temperature derivative of `G` (olivine.c 994), which `smixOlv` (olivine.c 3030) returns with the opposite sign as
`S`. The macro `DGDT` of olivine.c 1034, used nowhere, is `S` and so has the wrong sign. -/
def DGDT (xm1mn xm2mn xm1fe xm2fe xm1co xm2co xm1ni xm2ni xm2ca xm1mg xm2mg : ℝ) : ℝ :=
  -(S xm1mn xm2mn xm1fe xm2fe xm1co xm2co xm1ni xm2ni xm2ca xm1mg xm2mg)

/-- `DGDP`, olivine.c 1035. -/
def DGDP (r0 r1 r2 r3 r4 s0 s1 s2 s3 : ℝ) : ℝ :=
  V r0 r1 r2 r3 r4 s0 s1 s2 s3

/-- `D2GDR0R0`, olivine.c 1039-1040. -/
def D2GDR0R0 (t p xm1mn xm2mn xm1mg xm2mg : ℝ) : ℝ :=
  2 * (GR1R1 p) + (1 / 4) * R * t * (1 / xm1mn + 1 / xm2mn + 1 / xm1mg + 1 / xm2mg)

/-- `D2GDR0R1`, olivine.c 1041. -/
def D2GDR0R1 (t p xm1mg xm2mg : ℝ) : ℝ :=
  GR1R2 p + (1 / 4) * R * t * (1 / xm1mg + 1 / xm2mg)

/-- `D2GDR0R2`, olivine.c 1042. -/
def D2GDR0R2 (t p xm1mg xm2mg : ℝ) : ℝ :=
  GR1R3 p + (1 / 4) * R * t * (1 / xm1mg + 1 / xm2mg)

/-- `D2GDR0R3`, olivine.c 1043. -/
def D2GDR0R3 (t p xm1mg xm2mg : ℝ) : ℝ :=
  GR1R4 p + (1 / 4) * R * t * (1 / xm1mg + 1 / xm2mg)

/-- `D2GDR0R4`, olivine.c 1044. -/
def D2GDR0R4 (t p xm2mg : ℝ) : ℝ :=
  GR1R5 p + (1 / 2) * R * t * (1 / xm2mg)

/-- `D2GDR0S0`, olivine.c 1045-1046. -/
def D2GDR0S0 (t p xm1mn xm2mn xm1mg xm2mg : ℝ) : ℝ :=
  GR1S1 p + (1 / 4) * R * t * ((-1) / xm1mn + 1 / xm2mn - 1 / xm1mg + 1 / xm2mg)

/-- `D2GDR0S1`, olivine.c 1047. -/
def D2GDR0S1 (t p xm1mg xm2mg : ℝ) : ℝ :=
  GR1S2 p + (1 / 4) * R * t * ((-1) / xm1mg + 1 / xm2mg)

/-- `D2GDR0S2`, olivine.c 1048. -/
def D2GDR0S2 (t p xm1mg xm2mg : ℝ) : ℝ :=
  GR1S3 p + (1 / 4) * R * t * (1 / xm1mg - 1 / xm2mg)

/-- `D2GDR0S3`, olivine.c 1049. -/
def D2GDR0S3 (t p xm1mg xm2mg : ℝ) : ℝ :=
  GR1S4 p + (1 / 4) * R * t * (1 / xm1mg - 1 / xm2mg)

/-- `D2GDR0DT`, olivine.c 1050. -/
def D2GDR0DT (xm1mn xm2mn xm1mg xm2mg : ℝ) : ℝ :=
  (1 / 2) * R * Real.log (xm1mn * xm2mn / xm1mg / xm2mg)

/-- `D2GDR0DP`, olivine.c 1051-1053. -/
def D2GDR0DP (r0 r1 r2 r3 r4 s0 s1 s2 s3 : ℝ) : ℝ :=
  VR1 + 2 * VR1R1 * r0 + VR1R2 * r1 + VR1R3 * r2 + VR1R4 * r3 + VR1R5 * r4 + VR1S1 * s0 + VR1S2 * s1 + VR1S3 *
    s2 + VR1S4 * s3

/-- `D2GDR1R1`, olivine.c 1055-1056. -/
def D2GDR1R1 (t p xm1fe xm2fe xm1mg xm2mg : ℝ) : ℝ :=
  2 * (GR2R2 p) + (1 / 4) * R * t * (1 / xm1fe + 1 / xm2fe + 1 / xm1mg + 1 / xm2mg)

/-- `D2GDR1R2`, olivine.c 1057. -/
def D2GDR1R2 (t p xm1mg xm2mg : ℝ) : ℝ :=
  GR2R3 p + (1 / 4) * R * t * (1 / xm1mg + 1 / xm2mg)

/-- `D2GDR1R3`, olivine.c 1058. -/
def D2GDR1R3 (t p xm1mg xm2mg : ℝ) : ℝ :=
  GR2R4 p + (1 / 4) * R * t * (1 / xm1mg + 1 / xm2mg)

/-- `D2GDR1R4`, olivine.c 1059. -/
def D2GDR1R4 (t p xm2mg : ℝ) : ℝ :=
  GR2R5 p + (1 / 2) * R * t * (1 / xm2mg)

/-- `D2GDR1S0`, olivine.c 1060. -/
def D2GDR1S0 (t p xm1mg xm2mg : ℝ) : ℝ :=
  GR2S1 p + (1 / 4) * R * t * (1 / xm2mg - 1 / xm1mg)

/-- `D2GDR1S1`, olivine.c 1061-1062. -/
def D2GDR1S1 (t p xm1fe xm2fe xm1mg xm2mg : ℝ) : ℝ :=
  GR2S2 p + (1 / 4) * R * t * ((-1) / xm1fe + 1 / xm2fe - 1 / xm1mg + 1 / xm2mg)

/-- `D2GDR1S2`, olivine.c 1063. -/
def D2GDR1S2 (t p xm1mg xm2mg : ℝ) : ℝ :=
  GR2S3 p + (1 / 4) * R * t * (1 / xm1mg - 1 / xm2mg)

/-- `D2GDR1S3`, olivine.c 1064. -/
def D2GDR1S3 (t p xm1mg xm2mg : ℝ) : ℝ :=
  GR2S4 p + (1 / 4) * R * t * (1 / xm1mg - 1 / xm2mg)

/-- `D2GDR1DT`, olivine.c 1065. -/
def D2GDR1DT (xm1fe xm2fe xm1mg xm2mg : ℝ) : ℝ :=
  (1 / 2) * R * Real.log (xm1fe * xm2fe / xm1mg / xm2mg)

/-- `D2GDR1DP`, olivine.c 1066-1068. -/
def D2GDR1DP (r0 r1 r2 r3 r4 s0 s1 s2 s3 : ℝ) : ℝ :=
  VR2 + 2 * VR2R2 * r1 + VR1R2 * r0 + VR2R3 * r2 + VR2R4 * r3 + VR2R5 * r4 + VR2S1 * s0 + VR2S2 * s1 + VR2S3 *
    s2 + VR2S4 * s3

/-- `D2GDR2R2`, olivine.c 1070-1071. -/
def D2GDR2R2 (t p xm1co xm2co xm1mg xm2mg : ℝ) : ℝ :=
  2 * (GR3R3 p) + (1 / 4) * R * t * (1 / xm1co + 1 / xm2co + 1 / xm1mg + 1 / xm2mg)

/-- `D2GDR2R3`, olivine.c 1072. -/
def D2GDR2R3 (t p xm1mg xm2mg : ℝ) : ℝ :=
  GR3R4 p + (1 / 4) * R * t * (1 / xm1mg + 1 / xm2mg)

/-- `D2GDR2R4`, olivine.c 1073. -/
def D2GDR2R4 (t p xm2mg : ℝ) : ℝ :=
  GR3R5 p + (1 / 2) * R * t * (1 / xm2mg)

/-- `D2GDR2S0`, olivine.c 1074. -/
def D2GDR2S0 (t p xm1mg xm2mg : ℝ) : ℝ :=
  GR3S1 p + (1 / 4) * R * t * (1 / xm2mg - 1 / xm1mg)

/-- `D2GDR2S1`, olivine.c 1075. -/
def D2GDR2S1 (t p xm1mg xm2mg : ℝ) : ℝ :=
  GR3S2 p + (1 / 4) * R * t * (1 / xm2mg - 1 / xm1mg)

/-- `D2GDR2S2`, olivine.c 1076-1077. -/
def D2GDR2S2 (t p xm1co xm2co xm1mg xm2mg : ℝ) : ℝ :=
  GR3S3 p + (1 / 4) * R * t * (1 / xm1co - 1 / xm2co + 1 / xm1mg - 1 / xm2mg)

/-- `D2GDR2S3`, olivine.c 1078. -/
def D2GDR2S3 (t p xm1mg xm2mg : ℝ) : ℝ :=
  GR3S4 p + (1 / 4) * R * t * (1 / xm1mg - 1 / xm2mg)

/-- `D2GDR2DT`, olivine.c 1079. -/
def D2GDR2DT (xm1co xm2co xm1mg xm2mg : ℝ) : ℝ :=
  (1 / 2) * R * Real.log (xm1co * xm2co / xm1mg / xm2mg)

/-- `D2GDR2DP`, olivine.c 1080-1082. -/
def D2GDR2DP (r0 r1 r2 r3 r4 s0 s1 s2 s3 : ℝ) : ℝ :=
  VR3 + 2 * VR3R3 * r2 + VR1R3 * r0 + VR2R3 * r1 + VR3R4 * r3 + VR3R5 * r4 + VR3S1 * s0 + VR3S2 * s1 + VR3S3 *
    s2 + VR3S4 * s3

/-- `D2GDR3R3`, olivine.c 1084-1085. -/
def D2GDR3R3 (t p xm1ni xm2ni xm1mg xm2mg : ℝ) : ℝ :=
  2 * (GR4R4 p) + (1 / 4) * R * t * (1 / xm1mg + 1 / xm2mg + 1 / xm1ni + 1 / xm2ni)

/-- `D2GDR3R4`, olivine.c 1086. -/
def D2GDR3R4 (t p xm2mg : ℝ) : ℝ :=
  GR4R5 p + (1 / 2) * R * t * (1 / xm2mg)

/-- `D2GDR3S0`, olivine.c 1087. -/
def D2GDR3S0 (t p xm1mg xm2mg : ℝ) : ℝ :=
  GR4S1 p + (1 / 4) * R * t * (1 / xm2mg - 1 / xm1mg)

/-- `D2GDR3S1`, olivine.c 1088. -/
def D2GDR3S1 (t p xm1mg xm2mg : ℝ) : ℝ :=
  GR4S2 p + (1 / 4) * R * t * (1 / xm2mg - 1 / xm1mg)

/-- `D2GDR3S2`, olivine.c 1089. -/
def D2GDR3S2 (t p xm1mg xm2mg : ℝ) : ℝ :=
  GR4S3 p + (1 / 4) * R * t * (1 / xm1mg - 1 / xm2mg)

/-- `D2GDR3S3`, olivine.c 1090-1091. -/
def D2GDR3S3 (t p xm1ni xm2ni xm1mg xm2mg : ℝ) : ℝ :=
  GR4S4 p + (1 / 4) * R * t * (1 / xm1ni - 1 / xm2ni + 1 / xm1mg - 1 / xm2mg)

/-- `D2GDR3DT`, olivine.c 1092. -/
def D2GDR3DT (xm1ni xm2ni xm1mg xm2mg : ℝ) : ℝ :=
  (1 / 2) * R * Real.log (xm1ni * xm2ni / xm1mg / xm2mg)

/-- `D2GDR3DP`, olivine.c 1093-1095. -/
def D2GDR3DP (r0 r1 r2 r3 r4 s0 s1 s2 s3 : ℝ) : ℝ :=
  VR4 + 2 * VR4R4 * r3 + VR1R4 * r0 + VR2R4 * r1 + VR3R4 * r2 + VR4R5 * r4 + VR4S1 * s0 + VR4S2 * s1 + VR4S3 *
    s2 + VR4S4 * s3

/-- `D2GDR4R4`, olivine.c 1097. -/
def D2GDR4R4 (t p xm2ca xm2mg : ℝ) : ℝ :=
  2 * (GR5R5 p) + R * t * (1 / xm2mg + 1 / xm2ca)

/-- `D2GDR4S0`, olivine.c 1098. -/
def D2GDR4S0 (t p xm2mg : ℝ) : ℝ :=
  GR5S1 p + (1 / 2) * R * t * (1 / xm2mg)

/-- `D2GDR4S1`, olivine.c 1099. -/
def D2GDR4S1 (t p xm2mg : ℝ) : ℝ :=
  GR5S2 p + (1 / 2) * R * t * (1 / xm2mg)

/-- `D2GDR4S2`, olivine.c 1100. -/
def D2GDR4S2 (t p xm2mg : ℝ) : ℝ :=
  GR5S3 p - (1 / 2) * R * t * (1 / xm2mg)

/-- `D2GDR4S3`, olivine.c 1101. -/
def D2GDR4S3 (t p xm2mg : ℝ) : ℝ :=
  GR5S4 p - (1 / 2) * R * t * (1 / xm2mg)

/-- `D2GDR4DT`, olivine.c 1102. -/
def D2GDR4DT (xm2ca xm2mg : ℝ) : ℝ :=
  R * Real.log (xm2ca / xm2mg)

/-- `D2GDR4DP`, olivine.c 1103-1105. -/
def D2GDR4DP (r0 r1 r2 r3 r4 s0 s1 s2 s3 : ℝ) : ℝ :=
  VR5 + 2 * VR5R5 * r4 + VR1R5 * r0 + VR2R5 * r1 + VR3R5 * r2 + VR4R5 * r3 + VR5S1 * s0 + VR5S2 * s1 + VR5S3 *
    s2 + VR5S4 * s3

/-- `D2GDS0S0`, olivine.c 1107-1108. -/
def D2GDS0S0 (t p xm1mn xm2mn xm1mg xm2mg : ℝ) : ℝ :=
  2 * (GS1S1 p) + (1 / 4) * R * t * (1 / xm1mn + 1 / xm2mn + 1 / xm1mg + 1 / xm2mg)

/-- `D2GDS0S1`, olivine.c 1109. -/
def D2GDS0S1 (t p xm1mg xm2mg : ℝ) : ℝ :=
  GS1S2 p + (1 / 4) * R * t * (1 / xm1mg + 1 / xm2mg)

/-- `D2GDS0S2`, olivine.c 1110. -/
def D2GDS0S2 (t p xm1mg xm2mg : ℝ) : ℝ :=
  GS1S3 p - (1 / 4) * R * t * (1 / xm1mg + 1 / xm2mg)

/-- `D2GDS0S3`, olivine.c 1111. -/
def D2GDS0S3 (t p xm1mg xm2mg : ℝ) : ℝ :=
  GS1S4 p - (1 / 4) * R * t * (1 / xm1mg + 1 / xm2mg)

/-- `D2GDS0DT`, olivine.c 1112. -/
def D2GDS0DT (xm1mn xm2mn xm1mg xm2mg : ℝ) : ℝ :=
  (1 / 2) * R * Real.log (xm2mn * xm1mg / xm1mn / xm2mg)

/-- `D2GDS0DP`, olivine.c 1113-1115. -/
def D2GDS0DP (r0 r1 r2 r3 r4 s0 s1 s2 s3 : ℝ) : ℝ :=
  VS1 + 2 * VS1S1 * s0 + VR1S1 * r0 + VR2S1 * r1 + VR3S1 * r2 + VR4S1 * r3 + VR5S1 * r4 + VS1S2 * s1 + VS1S3 *
    s2 + VS1S4 * s3

/-- `D2GDS1S1`, olivine.c 1117-1118. -/
def D2GDS1S1 (t p xm1fe xm2fe xm1mg xm2mg : ℝ) : ℝ :=
  2 * (GS2S2 p) + (1 / 4) * R * t * (1 / xm1fe + 1 / xm2fe + 1 / xm1mg + 1 / xm2mg)

/-- `D2GDS1S2`, olivine.c 1119. -/
def D2GDS1S2 (t p xm1mg xm2mg : ℝ) : ℝ :=
  GS2S3 p - (1 / 4) * R * t * (1 / xm1mg + 1 / xm2mg)

/-- `D2GDS1S3`, olivine.c 1120. -/
def D2GDS1S3 (t p xm1mg xm2mg : ℝ) : ℝ :=
  GS2S4 p - (1 / 4) * R * t * (1 / xm1mg + 1 / xm2mg)

/-- `D2GDS1DT`, olivine.c 1121. -/
def D2GDS1DT (xm1fe xm2fe xm1mg xm2mg : ℝ) : ℝ :=
  (1 / 2) * R * Real.log (xm2fe * xm1mg / xm1fe / xm2mg)

/-- `D2GDS1DP`, olivine.c 1122-1124. -/
def D2GDS1DP (r0 r1 r2 r3 r4 s0 s1 s2 s3 : ℝ) : ℝ :=
  VS2 + 2 * VS2S2 * s1 + VR1S2 * r0 + VR2S2 * r1 + VR3S2 * r2 + VR4S2 * r3 + VR5S2 * r4 + VS1S2 * s0 + VS2S3 *
    s2 + VS2S4 * s3

/-- `D2GDS2S2`, olivine.c 1126-1127. -/
def D2GDS2S2 (t p xm1co xm2co xm1mg xm2mg : ℝ) : ℝ :=
  2 * (GS3S3 p) + (1 / 4) * R * t * (1 / xm1co + 1 / xm2co + 1 / xm1mg + 1 / xm2mg)

/-- `D2GDS2S3`, olivine.c 1128. -/
def D2GDS2S3 (t p xm1mg xm2mg : ℝ) : ℝ :=
  GS3S4 p + (1 / 4) * R * t * (1 / xm1mg + 1 / xm2mg)

/-- `D2GDS2DT`, olivine.c 1129. -/
def D2GDS2DT (xm1co xm2co xm1mg xm2mg : ℝ) : ℝ :=
  (1 / 2) * R * Real.log (xm1co * xm2mg / xm2co / xm1mg)

/-- `D2GDS2DP`, olivine.c 1130-1132. -/
def D2GDS2DP (r0 r1 r2 r3 r4 s0 s1 s2 s3 : ℝ) : ℝ :=
  VS3 + 2 * VS3S3 * s2 + VR1S3 * r0 + VR2S3 * r1 + VR3S3 * r2 + VR4S3 * r3 + VR5S3 * r4 + VS1S3 * s0 + VS2S3 *
    s1 + VS3S4 * s3

/-- `D2GDS3S3`, olivine.c 1134-1135. -/
def D2GDS3S3 (t p xm1ni xm2ni xm1mg xm2mg : ℝ) : ℝ :=
  2 * (GS4S4 p) + (1 / 4) * R * t * (1 / xm1ni + 1 / xm2ni + 1 / xm1mg + 1 / xm2mg)

/-- `D2GDS3DT`, olivine.c 1136. -/
def D2GDS3DT (xm1ni xm2ni xm1mg xm2mg : ℝ) : ℝ :=
  (1 / 2) * R * Real.log (xm1ni * xm2mg / xm2ni / xm1mg)

/-- `D2GDS3DP`, olivine.c 1137-1139. -/
def D2GDS3DP (r0 r1 r2 r3 r4 s0 s1 s2 s3 : ℝ) : ℝ :=
  VS4 + 2 * VS4S4 * s3 + VR1S4 * r0 + VR2S4 * r1 + VR3S4 * r2 + VR4S4 * r3 + VR5S4 * r4 + VS1S4 * s0 + VS2S4 *
    s1 + VS3S4 * s2

/-- `D2GDT2`, olivine.c 1141. -/
def D2GDT2 : ℝ :=
  0

/-- `D2GDTDP`, olivine.c 1142. -/
def D2GDTDP : ℝ :=
  0

/-- `D2GDP2`, olivine.c 1143. -/
def D2GDP2 : ℝ :=
  0

/-- `D3GDR0R0R0`, olivine.c 1146-1147. -/
def D3GDR0R0R0 (t xm1mn xm2mn xm1mg xm2mg : ℝ) : ℝ :=
  (1 / 8) * R * t * ((-1) / xm1mn ^ 2 + 1 / xm2mg ^ 2 - 1 / xm2mn ^ 2 + 1 / xm1mg ^ 2)

/-- `D3GDR0R0R1`, olivine.c 1148. -/
def D3GDR0R0R1 (t xm1mg xm2mg : ℝ) : ℝ :=
  (1 / 8) * R * t * (1 / xm1mg ^ 2 + 1 / xm2mg ^ 2)

/-- `D3GDR0R0S0`, olivine.c 1149-1150. -/
def D3GDR0R0S0 (t xm1mn xm2mn xm1mg xm2mg : ℝ) : ℝ :=
  (1 / 8) * R * t * (1 / xm1mn ^ 2 + 1 / xm2mg ^ 2 - 1 / xm2mn ^ 2 - 1 / xm1mg ^ 2)

/-- `D3GDR0R0S1`, olivine.c 1151. -/
def D3GDR0R0S1 (t xm1mg xm2mg : ℝ) : ℝ :=
  (1 / 8) * R * t * (1 / xm2mg ^ 2 - 1 / xm1mg ^ 2)

/-- `D3GDR0R0S2`, olivine.c 1152. -/
def D3GDR0R0S2 (t xm1mg xm2mg : ℝ) : ℝ :=
  (1 / 8) * R * t * (1 / xm1mg ^ 2 - 1 / xm2mg ^ 2)

/-- `D3GDR0R0S3`, olivine.c 1153. -/
def D3GDR0R0S3 (t xm1mg xm2mg : ℝ) : ℝ :=
  (1 / 8) * R * t * (1 / xm1mg ^ 2 - 1 / xm2mg ^ 2)

/-- `D3GDR0R0DT`, olivine.c 1154-1155. -/
def D3GDR0R0DT (xm1mn xm2mn xm1mg xm2mg : ℝ) : ℝ :=
  (1 / 4) * R * (1 / xm1mn + 1 / xm2mn + 1 / xm1mg + 1 / xm2mg)

/-- `D3GDR0R0DP`, olivine.c 1156. -/
def D3GDR0R0DP : ℝ :=
  2 * VR1R1

/-- `D3GDR0R1S0`, olivine.c 1158. -/
def D3GDR0R1S0 (t xm1mg xm2mg : ℝ) : ℝ :=
  (1 / 8) * R * t * (1 / xm2mg ^ 2 - 1 / xm1mg ^ 2)

/-- `D3GDR0R1S1`, olivine.c 1159. -/
def D3GDR0R1S1 (t xm1mg xm2mg : ℝ) : ℝ :=
  (1 / 8) * R * t * (1 / xm2mg ^ 2 - 1 / xm1mg ^ 2)

/-- `D3GDR0R1S2`, olivine.c 1160. -/
def D3GDR0R1S2 (t xm1mg xm2mg : ℝ) : ℝ :=
  (1 / 8) * R * t * (1 / xm1mg ^ 2 - 1 / xm2mg ^ 2)

/-- `D3GDR0R1S3`, olivine.c 1161. -/
def D3GDR0R1S3 (t xm1mg xm2mg : ℝ) : ℝ :=
  (1 / 8) * R * t * (1 / xm1mg ^ 2 - 1 / xm2mg ^ 2)

/-- `D3GDR0R1DT`, olivine.c 1162. -/
def D3GDR0R1DT (xm1mg xm2mg : ℝ) : ℝ :=
  (1 / 4) * R * (1 / xm1mg + 1 / xm2mg)

/-- `D3GDR0R1DP`, olivine.c 1163. -/
def D3GDR0R1DP : ℝ :=
  VR1R2

/-- `D3GDR0R2S0`, olivine.c 1165. -/
def D3GDR0R2S0 (t xm1mg xm2mg : ℝ) : ℝ :=
  (1 / 8) * R * t * (1 / xm2mg ^ 2 - 1 / xm1mg ^ 2)

/-- `D3GDR0R2S1`, olivine.c 1166. -/
def D3GDR0R2S1 (t xm1mg xm2mg : ℝ) : ℝ :=
  (1 / 8) * R * t * (1 / xm2mg ^ 2 - 1 / xm1mg ^ 2)

/-- `D3GDR0R2S2`, olivine.c 1167. -/
def D3GDR0R2S2 (t xm1mg xm2mg : ℝ) : ℝ :=
  (1 / 8) * R * t * (1 / xm1mg ^ 2 - 1 / xm2mg ^ 2)

/-- `D3GDR0R2S3`, olivine.c 1168. -/
def D3GDR0R2S3 (t xm1mg xm2mg : ℝ) : ℝ :=
  (1 / 8) * R * t * (1 / xm1mg ^ 2 - 1 / xm2mg ^ 2)

/-- `D3GDR0R2DT`, olivine.c 1169. -/
def D3GDR0R2DT (xm1mg xm2mg : ℝ) : ℝ :=
  (1 / 4) * R * (1 / xm1mg + 1 / xm2mg)

/-- `D3GDR0R2DP`, olivine.c 1170. -/
def D3GDR0R2DP : ℝ :=
  VR1R3

/-- `D3GDR0R3S0`, olivine.c 1172. -/
def D3GDR0R3S0 (t xm1mg xm2mg : ℝ) : ℝ :=
  (1 / 8) * R * t * (1 / xm2mg ^ 2 - 1 / xm1mg ^ 2)

/-- `D3GDR0R3S1`, olivine.c 1173. -/
def D3GDR0R3S1 (t xm1mg xm2mg : ℝ) : ℝ :=
  (1 / 8) * R * t * (1 / xm2mg ^ 2 - 1 / xm1mg ^ 2)

/-- `D3GDR0R3S2`, olivine.c 1174. -/
def D3GDR0R3S2 (t xm1mg xm2mg : ℝ) : ℝ :=
  (1 / 8) * R * t * (1 / xm1mg ^ 2 - 1 / xm2mg ^ 2)

/-- `D3GDR0R3S3`, olivine.c 1175. -/
def D3GDR0R3S3 (t xm1mg xm2mg : ℝ) : ℝ :=
  (1 / 8) * R * t * (1 / xm1mg ^ 2 - 1 / xm2mg ^ 2)

/-- `D3GDR0R3DT`, olivine.c 1176. -/
def D3GDR0R3DT (xm1mg xm2mg : ℝ) : ℝ :=
  (1 / 4) * R * (1 / xm1mg + 1 / xm2mg)

/-- `D3GDR0R3DP`, olivine.c 1177. -/
def D3GDR0R3DP : ℝ :=
  VR1R4

/-- `D3GDR0R4S0`, olivine.c 1179. -/
def D3GDR0R4S0 (t xm2mg : ℝ) : ℝ :=
  (1 / 4) * R * t * (1 / xm2mg ^ 2)

/-- `D3GDR0R4S1`, olivine.c 1180. -/
def D3GDR0R4S1 (t xm2mg : ℝ) : ℝ :=
  (1 / 4) * R * t * (1 / xm2mg ^ 2)

/-- `D3GDR0R4S2`, olivine.c 1181. -/
def D3GDR0R4S2 (t xm2mg : ℝ) : ℝ :=
  (-(1 / 4)) * R * t * (1 / xm2mg ^ 2)

/-- `D3GDR0R4S3`, olivine.c 1182. -/
def D3GDR0R4S3 (t xm2mg : ℝ) : ℝ :=
  (-(1 / 4)) * R * t * (1 / xm2mg ^ 2)

/-- `D3GDR0R4DT`, olivine.c 1183. -/
def D3GDR0R4DT (xm2mg : ℝ) : ℝ :=
  (1 / 2) * R * (1 / xm2mg)

/-- `D3GDR0R4DP`, olivine.c 1184. -/
def D3GDR0R4DP : ℝ :=
  VR1R5

/-- `D3GDR0S0S0`, olivine.c 1186-1187. -/
def D3GDR0S0S0 (t xm1mn xm2mn xm1mg xm2mg : ℝ) : ℝ :=
  (1 / 8) * R * t * (1 / xm2mg ^ 2 + 1 / xm1mg ^ 2 - 1 / xm2mn ^ 2 - 1 / xm1mn ^ 2)

/-- `D3GDR0S0S1`, olivine.c 1188. -/
def D3GDR0S0S1 (t xm1mg xm2mg : ℝ) : ℝ :=
  (1 / 8) * R * t * (1 / xm2mg ^ 2 + 1 / xm1mg ^ 2)

/-- `D3GDR0S0S2`, olivine.c 1189. -/
def D3GDR0S0S2 (t xm1mg xm2mg : ℝ) : ℝ :=
  (-(1 / 8)) * R * t * (1 / xm2mg ^ 2 + 1 / xm1mg ^ 2)

/-- `D3GDR0S0S3`, olivine.c 1190. -/
def D3GDR0S0S3 (t xm1mg xm2mg : ℝ) : ℝ :=
  (-(1 / 8)) * R * t * (1 / xm2mg ^ 2 + 1 / xm1mg ^ 2)

/-- `D3GDR0S0DT`, olivine.c 1191-1192. -/
def D3GDR0S0DT (xm1mn xm2mn xm1mg xm2mg : ℝ) : ℝ :=
  (1 / 4) * R * ((-1) / xm1mn + 1 / xm2mn - 1 / xm1mg + 1 / xm2mg)

/-- `D3GDR0S0DP`, olivine.c 1193. -/
def D3GDR0S0DP : ℝ :=
  VR1S1

/-- `D3GDR0S1S1`, olivine.c 1195. -/
def D3GDR0S1S1 (t xm1mg xm2mg : ℝ) : ℝ :=
  (1 / 8) * R * t * (1 / xm2mg ^ 2 + 1 / xm1mg ^ 2)

/-- `D3GDR0S1S2`, olivine.c 1196. -/
def D3GDR0S1S2 (t xm1mg xm2mg : ℝ) : ℝ :=
  (-(1 / 8)) * R * t * (1 / xm2mg ^ 2 + 1 / xm1mg ^ 2)

/-- `D3GDR0S1S3`, olivine.c 1197. -/
def D3GDR0S1S3 (t xm1mg xm2mg : ℝ) : ℝ :=
  (-(1 / 8)) * R * t * (1 / xm2mg ^ 2 + 1 / xm1mg ^ 2)

/-- `D3GDR0S1DT`, olivine.c 1198. -/
def D3GDR0S1DT (xm1mg xm2mg : ℝ) : ℝ :=
  (1 / 4) * R * (1 / xm2mg - 1 / xm1mg)

/-- `D3GDR0S1DP`, olivine.c 1199. -/
def D3GDR0S1DP : ℝ :=
  VR1S2

/-- `D3GDR0S2S2`, olivine.c 1201. -/
def D3GDR0S2S2 (t xm1mg xm2mg : ℝ) : ℝ :=
  (1 / 8) * R * t * (1 / xm2mg ^ 2 + 1 / xm1mg ^ 2)

/-- `D3GDR0S2S3`, olivine.c 1202. -/
def D3GDR0S2S3 (t xm1mg xm2mg : ℝ) : ℝ :=
  (1 / 8) * R * t * (1 / xm2mg ^ 2 + 1 / xm1mg ^ 2)

/-- `D3GDR0S2DT`, olivine.c 1203. -/
def D3GDR0S2DT (xm1mg xm2mg : ℝ) : ℝ :=
  (1 / 4) * R * (1 / xm1mg - 1 / xm2mg)

/-- `D3GDR0S2DP`, olivine.c 1204. -/
def D3GDR0S2DP : ℝ :=
  VR1S3

/-- `D3GDR0S3S3`, olivine.c 1206. -/
def D3GDR0S3S3 (t xm1mg xm2mg : ℝ) : ℝ :=
  (1 / 8) * R * t * (1 / xm2mg ^ 2 + 1 / xm1mg ^ 2)

/-- `D3GDR0S3DT`, olivine.c 1207. -/
def D3GDR0S3DT (xm1mg xm2mg : ℝ) : ℝ :=
  (1 / 4) * R * (1 / xm1mg - 1 / xm2mg)

/-- `D3GDR0S3DP`, olivine.c 1209. -/
def D3GDR0S3DP : ℝ :=
  VR1S4

/-- `D3GDR1R1R1`, olivine.c 1211-1212. -/
def D3GDR1R1R1 (t xm1fe xm2fe xm1mg xm2mg : ℝ) : ℝ :=
  (1 / 8) * R * t * (1 / xm2mg ^ 2 + 1 / xm1mg ^ 2 - 1 / xm1fe ^ 2 - 1 / xm2fe ^ 2)

/-- `D3GDR1R1S0`, olivine.c 1213. -/
def D3GDR1R1S0 (t xm1mg xm2mg : ℝ) : ℝ :=
  (1 / 8) * R * t * (1 / xm2mg ^ 2 - 1 / xm1mg ^ 2)

/-- `D3GDR1R1S1`, olivine.c 1214-1215. -/
def D3GDR1R1S1 (t xm1fe xm2fe xm1mg xm2mg : ℝ) : ℝ :=
  (1 / 8) * R * t * (1 / xm2mg ^ 2 - 1 / xm1mg ^ 2 + 1 / xm1fe ^ 2 - 1 / xm2fe ^ 2)

/-- `D3GDR1R1S2`, olivine.c 1216. -/
def D3GDR1R1S2 (t xm1mg xm2mg : ℝ) : ℝ :=
  (1 / 8) * R * t * (1 / xm1mg ^ 2 - 1 / xm2mg ^ 2)

/-- `D3GDR1R1S3`, olivine.c 1217. -/
def D3GDR1R1S3 (t xm1mg xm2mg : ℝ) : ℝ :=
  (1 / 8) * R * t * (1 / xm1mg ^ 2 - 1 / xm2mg ^ 2)

/-- `D3GDR1R1DT`, olivine.c 1218-1219. -/
def D3GDR1R1DT (xm1fe xm2fe xm1mg xm2mg : ℝ) : ℝ :=
  (1 / 4) * R * (1 / xm1fe + 1 / xm2fe + 1 / xm1mg + 1 / xm2mg)

/-- `D3GDR1R1DP`, olivine.c 1220. -/
def D3GDR1R1DP : ℝ :=
  2 * VR2R2

/-- `D3GDR1R2S0`, olivine.c 1222. -/
def D3GDR1R2S0 (t xm1mg xm2mg : ℝ) : ℝ :=
  (1 / 8) * R * t * (1 / xm2mg ^ 2 - 1 / xm1mg ^ 2)

/-- `D3GDR1R2S1`, olivine.c 1223. -/
def D3GDR1R2S1 (t xm1mg xm2mg : ℝ) : ℝ :=
  (1 / 8) * R * t * (1 / xm2mg ^ 2 - 1 / xm1mg ^ 2)

/-- `D3GDR1R2S2`, olivine.c 1224. -/
def D3GDR1R2S2 (t xm1mg xm2mg : ℝ) : ℝ :=
  (1 / 8) * R * t * (1 / xm1mg ^ 2 - 1 / xm2mg ^ 2)

/-- `D3GDR1R2S3`, olivine.c 1225. -/
def D3GDR1R2S3 (t xm1mg xm2mg : ℝ) : ℝ :=
  (1 / 8) * R * t * (1 / xm1mg ^ 2 - 1 / xm2mg ^ 2)

/-- `D3GDR1R2DT`, olivine.c 1226. -/
def D3GDR1R2DT (xm1mg xm2mg : ℝ) : ℝ :=
  (1 / 4) * R * (1 / xm1mg + 1 / xm2mg)

/-- `D3GDR1R2DP`, olivine.c 1227. -/
def D3GDR1R2DP : ℝ :=
  VR2R3

/-- `D3GDR1R3S0`, olivine.c 1229. -/
def D3GDR1R3S0 (t xm1mg xm2mg : ℝ) : ℝ :=
  (1 / 8) * R * t * (1 / xm2mg ^ 2 - 1 / xm1mg ^ 2)

/-- `D3GDR1R3S1`, olivine.c 1230. -/
def D3GDR1R3S1 (t xm1mg xm2mg : ℝ) : ℝ :=
  (1 / 8) * R * t * (1 / xm2mg ^ 2 - 1 / xm1mg ^ 2)

/-- `D3GDR1R3S2`, olivine.c 1231. -/
def D3GDR1R3S2 (t xm1mg xm2mg : ℝ) : ℝ :=
  (1 / 8) * R * t * (1 / xm1mg ^ 2 - 1 / xm2mg ^ 2)

/-- `D3GDR1R3S3`, olivine.c 1232. -/
def D3GDR1R3S3 (t xm1mg xm2mg : ℝ) : ℝ :=
  (1 / 8) * R * t * (1 / xm1mg ^ 2 - 1 / xm2mg ^ 2)

/-- `D3GDR1R3DT`, olivine.c 1233. -/
def D3GDR1R3DT (xm1mg xm2mg : ℝ) : ℝ :=
  (1 / 4) * R * (1 / xm1mg + 1 / xm2mg)

/-- `D3GDR1R3DP`, olivine.c 1234. -/
def D3GDR1R3DP : ℝ :=
  VR2R4

/-- `D3GDR1R4S0`, olivine.c 1236. -/
def D3GDR1R4S0 (t xm2mg : ℝ) : ℝ :=
  (1 / 4) * R * t * (1 / xm2mg ^ 2)

/-- `D3GDR1R4S1`, olivine.c 1237. -/
def D3GDR1R4S1 (t xm2mg : ℝ) : ℝ :=
  (1 / 4) * R * t * (1 / xm2mg ^ 2)

/-- `D3GDR1R4S2`, olivine.c 1238. -/
def D3GDR1R4S2 (t xm2mg : ℝ) : ℝ :=
  (-(1 / 4)) * R * t * (1 / xm2mg ^ 2)

/-- `D3GDR1R4S3`, olivine.c 1239. -/
def D3GDR1R4S3 (t xm2mg : ℝ) : ℝ :=
  (-(1 / 4)) * R * t * (1 / xm2mg ^ 2)

/-- `D3GDR1R4DT`, olivine.c 1240. -/
def D3GDR1R4DT (xm2mg : ℝ) : ℝ :=
  (1 / 2) * R * (1 / xm2mg)

/-- `D3GDR1R4DP`, olivine.c 1241. -/
def D3GDR1R4DP : ℝ :=
  VR2R5

/-- `D3GDR1S0S0`, olivine.c 1243. -/
def D3GDR1S0S0 (t xm1mg xm2mg : ℝ) : ℝ :=
  (1 / 8) * R * t * (1 / xm2mg ^ 2 + 1 / xm1mg ^ 2)

/-- `D3GDR1S0S1`, olivine.c 1244. -/
def D3GDR1S0S1 (t xm1mg xm2mg : ℝ) : ℝ :=
  (1 / 8) * R * t * (1 / xm2mg ^ 2 + 1 / xm1mg ^ 2)

/-- `D3GDR1S0S2`, olivine.c 1245. -/
def D3GDR1S0S2 (t xm1mg xm2mg : ℝ) : ℝ :=
  (-(1 / 8)) * R * t * (1 / xm2mg ^ 2 + 1 / xm1mg ^ 2)

/-- `D3GDR1S0S3`, olivine.c 1246. -/
def D3GDR1S0S3 (t xm1mg xm2mg : ℝ) : ℝ :=
  (-(1 / 8)) * R * t * (1 / xm2mg ^ 2 + 1 / xm1mg ^ 2)

/-- `D3GDR1S0DT`, olivine.c 1247. -/
def D3GDR1S0DT (xm1mg xm2mg : ℝ) : ℝ :=
  (1 / 4) * R * (1 / xm2mg - 1 / xm1mg)

/-- `D3GDR1S0DP`, olivine.c 1248. -/
def D3GDR1S0DP : ℝ :=
  VR2S1

/-- `D3GDR1S1S1`, olivine.c 1250-1251. -/
def D3GDR1S1S1 (t xm1fe xm2fe xm1mg xm2mg : ℝ) : ℝ :=
  (1 / 8) * R * t * (1 / xm2mg ^ 2 + 1 / xm1mg ^ 2 - 1 / xm2fe ^ 2 - 1 / xm1fe ^ 2)

/-- `D3GDR1S1S2`, olivine.c 1252. -/
def D3GDR1S1S2 (t xm1mg xm2mg : ℝ) : ℝ :=
  (-(1 / 8)) * R * t * (1 / xm2mg ^ 2 + 1 / xm1mg ^ 2)

/-- `D3GDR1S1S3`, olivine.c 1253. -/
def D3GDR1S1S3 (t xm1mg xm2mg : ℝ) : ℝ :=
  (-(1 / 8)) * R * t * (1 / xm2mg ^ 2 + 1 / xm1mg ^ 2)

/-- `D3GDR1S1DT`, olivine.c 1254-1255. -/
def D3GDR1S1DT (xm1fe xm2fe xm1mg xm2mg : ℝ) : ℝ :=
  (1 / 4) * R * ((-1) / xm1fe + 1 / xm2fe - 1 / xm1mg + 1 / xm2mg)

/-- `D3GDR1S1DP`, olivine.c 1256. -/
def D3GDR1S1DP : ℝ :=
  VR2S2

/-- `D3GDR1S2S2`, olivine.c 1258. -/
def D3GDR1S2S2 (t xm1mg xm2mg : ℝ) : ℝ :=
  (1 / 8) * R * t * (1 / xm2mg ^ 2 + 1 / xm1mg ^ 2)

/-- `D3GDR1S2S3`, olivine.c 1259. -/
def D3GDR1S2S3 (t xm1mg xm2mg : ℝ) : ℝ :=
  (1 / 8) * R * t * (1 / xm2mg ^ 2 + 1 / xm1mg ^ 2)

/-- `D3GDR1S2DT`, olivine.c 1260. -/
def D3GDR1S2DT (xm1mg xm2mg : ℝ) : ℝ :=
  (1 / 4) * R * (1 / xm1mg - 1 / xm2mg)

/-- `D3GDR1S2DP`, olivine.c 1261. -/
def D3GDR1S2DP : ℝ :=
  VR2S3

/-- `D3GDR1S3S3`, olivine.c 1263. -/
def D3GDR1S3S3 (t xm1mg xm2mg : ℝ) : ℝ :=
  (1 / 8) * R * t * (1 / xm2mg ^ 2 + 1 / xm1mg ^ 2)

/-- `D3GDR1S3DT`, olivine.c 1264. -/
def D3GDR1S3DT (xm1mg xm2mg : ℝ) : ℝ :=
  (1 / 4) * R * (1 / xm1mg - 1 / xm2mg)

/-- `D3GDR1S3DP`, olivine.c 1265. -/
def D3GDR1S3DP : ℝ :=
  VR2S4

/-- `D3GDR2R2R2`, olivine.c 1267-1268. -/
def D3GDR2R2R2 (t xm1co xm2co xm1mg xm2mg : ℝ) : ℝ :=
  (1 / 8) * R * t * (1 / xm1mg ^ 2 + 1 / xm2mg ^ 2 - 1 / xm2co ^ 2 - 1 / xm1co ^ 2)

/-- `D3GDR2R2S0`, olivine.c 1269. -/
def D3GDR2R2S0 (t xm1mg xm2mg : ℝ) : ℝ :=
  (1 / 8) * R * t * (1 / xm2mg ^ 2 - 1 / xm1mg ^ 2)

/-- `D3GDR2R2S1`, olivine.c 1270. -/
def D3GDR2R2S1 (t xm1mg xm2mg : ℝ) : ℝ :=
  (1 / 8) * R * t * (1 / xm2mg ^ 2 - 1 / xm1mg ^ 2)

/-- `D3GDR2R2S2`, olivine.c 1271-1272. -/
def D3GDR2R2S2 (t xm1co xm2co xm1mg xm2mg : ℝ) : ℝ :=
  (1 / 8) * R * t * (1 / xm1mg ^ 2 - 1 / xm2mg ^ 2 + 1 / xm2co ^ 2 - 1 / xm1co ^ 2)

/-- `D3GDR2R2S3`, olivine.c 1273. -/
def D3GDR2R2S3 (t xm1mg xm2mg : ℝ) : ℝ :=
  (1 / 8) * R * t * (1 / xm1mg ^ 2 - 1 / xm2mg ^ 2)

/-- `D3GDR2R2DT`, olivine.c 1274-1275. -/
def D3GDR2R2DT (xm1co xm2co xm1mg xm2mg : ℝ) : ℝ :=
  (1 / 4) * R * (1 / xm1co + 1 / xm2co + 1 / xm1mg + 1 / xm2mg)

/-- `D3GDR2R2DP`, olivine.c 1276. -/
def D3GDR2R2DP : ℝ :=
  2 * VR3R3

/-- `D3GDR2R3S0`, olivine.c 1278. -/
def D3GDR2R3S0 (t xm1mg xm2mg : ℝ) : ℝ :=
  (1 / 8) * R * t * (1 / xm2mg ^ 2 - 1 / xm1mg ^ 2)

/-- `D3GDR2R3S1`, olivine.c 1279. -/
def D3GDR2R3S1 (t xm1mg xm2mg : ℝ) : ℝ :=
  (1 / 8) * R * t * (1 / xm2mg ^ 2 - 1 / xm1mg ^ 2)

/-- `D3GDR2R3S2`, olivine.c 1280. -/
def D3GDR2R3S2 (t xm1mg xm2mg : ℝ) : ℝ :=
  (1 / 8) * R * t * (1 / xm1mg ^ 2 - 1 / xm2mg ^ 2)

/-- `D3GDR2R3S3`, olivine.c 1281. -/
def D3GDR2R3S3 (t xm1mg xm2mg : ℝ) : ℝ :=
  (1 / 8) * R * t * (1 / xm1mg ^ 2 - 1 / xm2mg ^ 2)

/-- `D3GDR2R3DT`, olivine.c 1282. -/
def D3GDR2R3DT (xm1mg xm2mg : ℝ) : ℝ :=
  (1 / 4) * R * (1 / xm1mg + 1 / xm2mg)

/-- `D3GDR2R3DP`, olivine.c 1283. -/
def D3GDR2R3DP : ℝ :=
  VR3R4

/-- `D3GDR2R4S0`, olivine.c 1285. -/
def D3GDR2R4S0 (t xm2mg : ℝ) : ℝ :=
  (1 / 4) * R * t * (1 / xm2mg ^ 2)

/-- `D3GDR2R4S1`, olivine.c 1286. -/
def D3GDR2R4S1 (t xm2mg : ℝ) : ℝ :=
  (1 / 4) * R * t * (1 / xm2mg ^ 2)

/-- `D3GDR2R4S2`, olivine.c 1287. -/
def D3GDR2R4S2 (t xm2mg : ℝ) : ℝ :=
  (-(1 / 4)) * R * t * (1 / xm2mg ^ 2)

/-- `D3GDR2R4S3`, olivine.c 1288. -/
def D3GDR2R4S3 (t xm2mg : ℝ) : ℝ :=
  (-(1 / 4)) * R * t * (1 / xm2mg ^ 2)

/-- `D3GDR2R4DT`, olivine.c 1289. -/
def D3GDR2R4DT (xm2mg : ℝ) : ℝ :=
  (1 / 2) * R * (1 / xm2mg)

/-- `D3GDR2R4DP`, olivine.c 1290. -/
def D3GDR2R4DP : ℝ :=
  VR3R5

/-- `D3GDR2S0S0`, olivine.c 1292. -/
def D3GDR2S0S0 (t xm1mg xm2mg : ℝ) : ℝ :=
  (1 / 8) * R * t * (1 / xm2mg ^ 2 + 1 / xm1mg ^ 2)

/-- `D3GDR2S0S1`, olivine.c 1293. -/
def D3GDR2S0S1 (t xm1mg xm2mg : ℝ) : ℝ :=
  (1 / 8) * R * t * (1 / xm2mg ^ 2 + 1 / xm1mg ^ 2)

/-- `D3GDR2S0S2`, olivine.c 1294. -/
def D3GDR2S0S2 (t xm1mg xm2mg : ℝ) : ℝ :=
  (-(1 / 8)) * R * t * (1 / xm2mg ^ 2 + 1 / xm1mg ^ 2)

/-- `D3GDR2S0S3`, olivine.c 1295. -/
def D3GDR2S0S3 (t xm1mg xm2mg : ℝ) : ℝ :=
  (-(1 / 8)) * R * t * (1 / xm2mg ^ 2 + 1 / xm1mg ^ 2)

/-- `D3GDR2S0DT`, olivine.c 1296. -/
def D3GDR2S0DT (xm1mg xm2mg : ℝ) : ℝ :=
  (1 / 4) * R * (1 / xm2mg - 1 / xm1mg)

/-- `D3GDR2S0DP`, olivine.c 1297. -/
def D3GDR2S0DP : ℝ :=
  VR3S1

/-- `D3GDR2S1S1`, olivine.c 1299. -/
def D3GDR2S1S1 (t xm1mg xm2mg : ℝ) : ℝ :=
  (1 / 8) * R * t * (1 / xm2mg ^ 2 + 1 / xm1mg ^ 2)

/-- `D3GDR2S1S2`, olivine.c 1300. -/
def D3GDR2S1S2 (t xm1mg xm2mg : ℝ) : ℝ :=
  (-(1 / 8)) * R * t * (1 / xm2mg ^ 2 + 1 / xm1mg ^ 2)

/-- `D3GDR2S1S3`, olivine.c 1301. -/
def D3GDR2S1S3 (t xm1mg xm2mg : ℝ) : ℝ :=
  (-(1 / 8)) * R * t * (1 / xm2mg ^ 2 + 1 / xm1mg ^ 2)

/-- `D3GDR2S1DT`, olivine.c 1302. -/
def D3GDR2S1DT (xm1mg xm2mg : ℝ) : ℝ :=
  (1 / 4) * R * (1 / xm2mg - 1 / xm1mg)

/-- `D3GDR2S1DP`, olivine.c 1303. -/
def D3GDR2S1DP : ℝ :=
  VR3S2

/-- `D3GDR2S2S2`, olivine.c 1305-1306. -/
def D3GDR2S2S2 (t xm1co xm2co xm1mg xm2mg : ℝ) : ℝ :=
  (1 / 8) * R * t * (1 / xm1mg ^ 2 + 1 / xm2mg ^ 2 - 1 / xm1co ^ 2 - 1 / xm2co ^ 2)

/-- `D3GDR2S2S3`, olivine.c 1307. -/
def D3GDR2S2S3 (t xm1mg xm2mg : ℝ) : ℝ :=
  (1 / 8) * R * t * (1 / xm1mg ^ 2 + 1 / xm2mg ^ 2)

/-- `D3GDR2S2DT`, olivine.c 1308-1309. -/
def D3GDR2S2DT (xm1co xm2co xm1mg xm2mg : ℝ) : ℝ :=
  (1 / 4) * R * (1 / xm1co - 1 / xm2co + 1 / xm1mg - 1 / xm2mg)

/-- `D3GDR2S2DP`, olivine.c 1310. -/
def D3GDR2S2DP : ℝ :=
  VR3S3

/-- `D3GDR2S3S2`, olivine.c 1312. -/
def D3GDR2S3S2 (t xm1mg xm2mg : ℝ) : ℝ :=
  (1 / 8) * R * t * (1 / xm2mg ^ 2 + 1 / xm1mg ^ 2)

/-- `D3GDR2S3S3`, olivine.c 1313. -/
def D3GDR2S3S3 (t xm1mg xm2mg : ℝ) : ℝ :=
  (1 / 8) * R * t * (1 / xm2mg ^ 2 + 1 / xm1mg ^ 2)

/-- `D3GDR2S3DT`, olivine.c 1314. -/
def D3GDR2S3DT (xm1mg xm2mg : ℝ) : ℝ :=
  (1 / 4) * R * (1 / xm1mg - 1 / xm2mg)

/-- `D3GDR2S3DP`, olivine.c 1315. -/
def D3GDR2S3DP : ℝ :=
  VR3S4

/-- `D3GDR3R3R3`, olivine.c 1317-1318. -/
def D3GDR3R3R3 (t xm1ni xm2ni xm1mg xm2mg : ℝ) : ℝ :=
  (1 / 8) * R * t * (1 / xm1mg ^ 2 + 1 / xm2mg ^ 2 - 1 / xm2ni ^ 2 - 1 / xm1ni ^ 2)

/-- `D3GDR3R3S0`, olivine.c 1319. -/
def D3GDR3R3S0 (t xm1mg xm2mg : ℝ) : ℝ :=
  (1 / 8) * R * t * (1 / xm2mg ^ 2 - 1 / xm1mg ^ 2)

/-- `D3GDR3R3S1`, olivine.c 1320. -/
def D3GDR3R3S1 (t xm1mg xm2mg : ℝ) : ℝ :=
  (1 / 8) * R * t * (1 / xm2mg ^ 2 - 1 / xm1mg ^ 2)

/-- `D3GDR3R3S2`, olivine.c 1321. -/
def D3GDR3R3S2 (t xm1mg xm2mg : ℝ) : ℝ :=
  (1 / 8) * R * t * (1 / xm1mg ^ 2 - 1 / xm2mg ^ 2)

/-- `D3GDR3R3S3`, olivine.c 1322-1323. -/
def D3GDR3R3S3 (t xm1ni xm2ni xm1mg xm2mg : ℝ) : ℝ :=
  (1 / 8) * R * t * (1 / xm1mg ^ 2 - 1 / xm2mg ^ 2 + 1 / xm2ni ^ 2 - 1 / xm1ni ^ 2)

/-- `D3GDR3R3DT`, olivine.c 1324-1325. -/
def D3GDR3R3DT (xm1ni xm2ni xm1mg xm2mg : ℝ) : ℝ :=
  (1 / 4) * R * (1 / xm1mg + 1 / xm2mg + 1 / xm1ni + 1 / xm2ni)

/-- `D3GDR3R3DP`, olivine.c 1326. -/
def D3GDR3R3DP : ℝ :=
  2 * VR4R4

/-- `D3GDR3R4S0`, olivine.c 1328. -/
def D3GDR3R4S0 (t xm2mg : ℝ) : ℝ :=
  (1 / 4) * R * t * (1 / xm2mg ^ 2)

/-- `D3GDR3R4S1`, olivine.c 1329. -/
def D3GDR3R4S1 (t xm2mg : ℝ) : ℝ :=
  (1 / 4) * R * t * (1 / xm2mg ^ 2)

/-- `D3GDR3R4S2`, olivine.c 1330. -/
def D3GDR3R4S2 (t xm2mg : ℝ) : ℝ :=
  (-(1 / 4)) * R * t * (1 / xm2mg ^ 2)

/-- `D3GDR3R4S3`, olivine.c 1331. -/
def D3GDR3R4S3 (t xm2mg : ℝ) : ℝ :=
  (-(1 / 4)) * R * t * (1 / xm2mg ^ 2)

/-- `D3GDR3R4DT`, olivine.c 1332. -/
def D3GDR3R4DT (xm2mg : ℝ) : ℝ :=
  (1 / 2) * R * (1 / xm2mg)

/-- `D3GDR3R4DP`, olivine.c 1333. -/
def D3GDR3R4DP : ℝ :=
  VR4R5

/-- `D3GDR3S0S0`, olivine.c 1335. -/
def D3GDR3S0S0 (t xm1mg xm2mg : ℝ) : ℝ :=
  (1 / 8) * R * t * (1 / xm2mg ^ 2 + 1 / xm1mg ^ 2)

/-- `D3GDR3S0S1`, olivine.c 1336. -/
def D3GDR3S0S1 (t xm1mg xm2mg : ℝ) : ℝ :=
  (1 / 8) * R * t * (1 / xm2mg ^ 2 + 1 / xm1mg ^ 2)

/-- `D3GDR3S0S2`, olivine.c 1337. -/
def D3GDR3S0S2 (t xm1mg xm2mg : ℝ) : ℝ :=
  (-(1 / 8)) * R * t * (1 / xm2mg ^ 2 + 1 / xm1mg ^ 2)

/-- `D3GDR3S0S3`, olivine.c 1338. -/
def D3GDR3S0S3 (t xm1mg xm2mg : ℝ) : ℝ :=
  (-(1 / 8)) * R * t * (1 / xm2mg ^ 2 + 1 / xm1mg ^ 2)

/-- `D3GDR3S0DT`, olivine.c 1339. -/
def D3GDR3S0DT (xm1mg xm2mg : ℝ) : ℝ :=
  (1 / 4) * R * (1 / xm2mg - 1 / xm1mg)

/-- `D3GDR3S0DP`, olivine.c 1340. -/
def D3GDR3S0DP : ℝ :=
  VR4S1

/-- `D3GDR3S1S1`, olivine.c 1342. -/
def D3GDR3S1S1 (t xm1mg xm2mg : ℝ) : ℝ :=
  (1 / 8) * R * t * (1 / xm2mg ^ 2 + 1 / xm1mg ^ 2)

/-- `D3GDR3S1S2`, olivine.c 1343. -/
def D3GDR3S1S2 (t xm1mg xm2mg : ℝ) : ℝ :=
  (-(1 / 8)) * R * t * (1 / xm2mg ^ 2 + 1 / xm1mg ^ 2)

/-- `D3GDR3S1S3`, olivine.c 1344. -/
def D3GDR3S1S3 (t xm1mg xm2mg : ℝ) : ℝ :=
  (-(1 / 8)) * R * t * (1 / xm2mg ^ 2 + 1 / xm1mg ^ 2)

/-- `D3GDR3S1DT`, olivine.c 1345. -/
def D3GDR3S1DT (xm1mg xm2mg : ℝ) : ℝ :=
  (1 / 4) * R * (1 / xm2mg - 1 / xm1mg)

/-- `D3GDR3S1DP`, olivine.c 1346. -/
def D3GDR3S1DP : ℝ :=
  VR4S2

/-- `D3GDR3S2S2`, olivine.c 1348. -/
def D3GDR3S2S2 (t xm1mg xm2mg : ℝ) : ℝ :=
  (1 / 8) * R * t * (1 / xm2mg ^ 2 + 1 / xm1mg ^ 2)

/-- `D3GDR3S2S3`, olivine.c 1349. -/
def D3GDR3S2S3 (t xm1mg xm2mg : ℝ) : ℝ :=
  (1 / 8) * R * t * (1 / xm2mg ^ 2 + 1 / xm1mg ^ 2)

/-- `D3GDR3S2DT`, olivine.c 1350. -/
def D3GDR3S2DT (xm1mg xm2mg : ℝ) : ℝ :=
  (1 / 4) * R * (1 / xm1mg - 1 / xm2mg)

/-- `D3GDR3S2DP`, olivine.c 1351. -/
def D3GDR3S2DP : ℝ :=
  VR4S3

/-- `D3GDR3S3S3`, olivine.c 1354-1355. -/
def D3GDR3S3S3 (t xm1ni xm2ni xm1mg xm2mg : ℝ) : ℝ :=
  (1 / 8) * R * t * (1 / xm1mg ^ 2 + 1 / xm2mg ^ 2 - 1 / xm1ni ^ 2 - 1 / xm2ni ^ 2)

/-- `D3GDR3S3DT`, olivine.c 1356-1357. -/
def D3GDR3S3DT (xm1ni xm2ni xm1mg xm2mg : ℝ) : ℝ :=
  (1 / 4) * R * (1 / xm1ni - 1 / xm2ni + 1 / xm1mg - 1 / xm2mg)

/-- `D3GDR3S3DP`, olivine.c 1358. -/
def D3GDR3S3DP : ℝ :=
  VR4S4

/-- `D3GDR4R4R4`, olivine.c 1360. -/
def D3GDR4R4R4 (t xm2ca xm2mg : ℝ) : ℝ :=
  R * t * (1 / xm2mg ^ 2 - 1 / xm2ca ^ 2)

/-- `D3GDR4R4R0`, olivine.c 1361. -/
def D3GDR4R4R0 (t xm2mg : ℝ) : ℝ :=
  (1 / 2) * R * t * (1 / xm2mg ^ 2)

/-- `D3GDR4R0R0`, olivine.c 1362. -/
def D3GDR4R0R0 (t xm2mg : ℝ) : ℝ :=
  (1 / 4) * R * t * (1 / xm2mg ^ 2)

/-- `D3GDR4R4S0`, olivine.c 1363. -/
def D3GDR4R4S0 (t xm2mg : ℝ) : ℝ :=
  (1 / 2) * R * t * (1 / xm2mg ^ 2)

/-- `D3GDR4R4S1`, olivine.c 1364. -/
def D3GDR4R4S1 (t xm2mg : ℝ) : ℝ :=
  (1 / 2) * R * t * (1 / xm2mg ^ 2)

/-- `D3GDR4R4S2`, olivine.c 1365. -/
def D3GDR4R4S2 (t xm2mg : ℝ) : ℝ :=
  (-(1 / 2)) * R * t * (1 / xm2mg ^ 2)

/-- `D3GDR4R4S3`, olivine.c 1366. -/
def D3GDR4R4S3 (t xm2mg : ℝ) : ℝ :=
  (-(1 / 2)) * R * t * (1 / xm2mg ^ 2)

/-- `D3GDR4R4DT`, olivine.c 1367. -/
def D3GDR4R4DT (xm2ca xm2mg : ℝ) : ℝ :=
  R * (1 / xm2mg + 1 / xm2ca)

/-- `D3GDR4R4DP`, olivine.c 1368. -/
def D3GDR4R4DP : ℝ :=
  2 * VR5R5

/-- `D3GDR4S0S0`, olivine.c 1370. -/
def D3GDR4S0S0 (t xm2mg : ℝ) : ℝ :=
  (1 / 4) * R * t * (1 / xm2mg ^ 2)

/-- `D3GDR4S0S1`, olivine.c 1371. -/
def D3GDR4S0S1 (t xm2mg : ℝ) : ℝ :=
  (1 / 4) * R * t * (1 / xm2mg ^ 2)

/-- `D3GDR4S0S2`, olivine.c 1372. -/
def D3GDR4S0S2 (t xm2mg : ℝ) : ℝ :=
  (-(1 / 4)) * R * t * (1 / xm2mg ^ 2)

/-- `D3GDR4S0S3`, olivine.c 1373. -/
def D3GDR4S0S3 (t xm2mg : ℝ) : ℝ :=
  (-(1 / 4)) * R * t * (1 / xm2mg ^ 2)

/-- `D3GDR4S0DT`, olivine.c 1374. -/
def D3GDR4S0DT (xm2mg : ℝ) : ℝ :=
  (1 / 2) * R * (1 / xm2mg)

/-- `D3GDR4S0DP`, olivine.c 1375. -/
def D3GDR4S0DP : ℝ :=
  VR5S1

/-- `D3GDR4S1S1`, olivine.c 1377. -/
def D3GDR4S1S1 (t xm2mg : ℝ) : ℝ :=
  (1 / 4) * R * t * (1 / xm2mg ^ 2)

/-- `D3GDR4S1S2`, olivine.c 1378. -/
def D3GDR4S1S2 (t xm2mg : ℝ) : ℝ :=
  (-(1 / 4)) * R * t * (1 / xm2mg ^ 2)

/-- `D3GDR4S1S3`, olivine.c 1379. -/
def D3GDR4S1S3 (t xm2mg : ℝ) : ℝ :=
  (-(1 / 4)) * R * t * (1 / xm2mg ^ 2)

/-- `D3GDR4S1DT`, olivine.c 1380. -/
def D3GDR4S1DT (xm2mg : ℝ) : ℝ :=
  (1 / 2) * R * (1 / xm2mg)

/-- `D3GDR4S1DP`, olivine.c 1381. -/
def D3GDR4S1DP : ℝ :=
  VR5S2

/-- `D3GDR4S2S2`, olivine.c 1383. -/
def D3GDR4S2S2 (t xm2mg : ℝ) : ℝ :=
  (1 / 4) * R * t * (1 / xm2mg ^ 2)

/-- `D3GDR4S2S3`, olivine.c 1384. -/
def D3GDR4S2S3 (t xm2mg : ℝ) : ℝ :=
  (1 / 4) * R * t * (1 / xm2mg ^ 2)

/-- `D3GDR4S2DT`, olivine.c 1385. -/
def D3GDR4S2DT (xm2mg : ℝ) : ℝ :=
  (-(1 / 2)) * R * (1 / xm2mg)

/-- `D3GDR4S2DP`, olivine.c 1386. -/
def D3GDR4S2DP : ℝ :=
  VR5S3

/-- `D3GDR4S3S3`, olivine.c 1388. -/
def D3GDR4S3S3 (t xm2mg : ℝ) : ℝ :=
  (1 / 4) * R * t * (1 / xm2mg ^ 2)

/-- `D3GDR4S3DT`, olivine.c 1389. -/
def D3GDR4S3DT (xm2mg : ℝ) : ℝ :=
  (-(1 / 2)) * R * (1 / xm2mg)

/-- `D3GDR4S3DP`, olivine.c 1390. -/
def D3GDR4S3DP : ℝ :=
  VR5S4

/-- `D3GDS0S0S0`, olivine.c 1392-1393. -/
def D3GDS0S0S0 (t xm1mn xm2mn xm1mg xm2mg : ℝ) : ℝ :=
  (1 / 8) * R * t * (1 / xm2mg ^ 2 - 1 / xm1mg ^ 2 + 1 / xm1mn ^ 2 - 1 / xm2mn ^ 2)

/-- `D3GDS0S0S1`, olivine.c 1394. -/
def D3GDS0S0S1 (t xm1mg xm2mg : ℝ) : ℝ :=
  (1 / 8) * R * t * (1 / xm2mg ^ 2 - 1 / xm1mg ^ 2)

/-- `D3GDS0S0S2`, olivine.c 1395. -/
def D3GDS0S0S2 (t xm1mg xm2mg : ℝ) : ℝ :=
  (1 / 8) * R * t * (1 / xm1mg ^ 2 - 1 / xm2mg ^ 2)

/-- `D3GDS0S0S3`, olivine.c 1396. -/
def D3GDS0S0S3 (t xm1mg xm2mg : ℝ) : ℝ :=
  (1 / 8) * R * t * (1 / xm1mg ^ 2 - 1 / xm2mg ^ 2)

/-- `D3GDS0S0DT`, olivine.c 1397. -/
def D3GDS0S0DT (xm1mn xm2mn xm1mg xm2mg : ℝ) : ℝ :=
  (1 / 4) * R * (1 / xm1mn + 1 / xm2mn + 1 / xm1mg + 1 / xm2mg)

/-- `D3GDS0S0DP`, olivine.c 1398. -/
def D3GDS0S0DP : ℝ :=
  2 * VS1S1

/-- `D3GDS0S1S1`, olivine.c 1400. -/
def D3GDS0S1S1 (t xm1mg xm2mg : ℝ) : ℝ :=
  (1 / 8) * R * t * (1 / xm2mg ^ 2 - 1 / xm1mg ^ 2)

/-- `D3GDS0S1S2`, olivine.c 1401. -/
def D3GDS0S1S2 (t xm1mg xm2mg : ℝ) : ℝ :=
  (1 / 8) * R * t * (1 / xm1mg ^ 2 - 1 / xm2mg ^ 2)

/-- `D3GDS0S1S3`, olivine.c 1402. -/
def D3GDS0S1S3 (t xm1mg xm2mg : ℝ) : ℝ :=
  (1 / 8) * R * t * (1 / xm1mg ^ 2 - 1 / xm2mg ^ 2)

/-- `D3GDS0S1DT`, olivine.c 1403. -/
def D3GDS0S1DT (xm1mg xm2mg : ℝ) : ℝ :=
  (1 / 4) * R * (1 / xm1mg + 1 / xm2mg)

/-- `D3GDS0S1DP`, olivine.c 1404. -/
def D3GDS0S1DP : ℝ :=
  VS1S2

/-- `D3GDS0S2S2`, olivine.c 1406. -/
def D3GDS0S2S2 (t xm1mg xm2mg : ℝ) : ℝ :=
  (1 / 8) * R * t * (1 / xm2mg ^ 2 - 1 / xm1mg ^ 2)

/-- `D3GDS0S2S3`, olivine.c 1407. -/
def D3GDS0S2S3 (t xm1mg xm2mg : ℝ) : ℝ :=
  (1 / 8) * R * t * (1 / xm2mg ^ 2 - 1 / xm1mg ^ 2)

/-- `D3GDS0S2DT`, olivine.c 1408. -/
def D3GDS0S2DT (xm1mg xm2mg : ℝ) : ℝ :=
  (-(1 / 4)) * R * (1 / xm1mg + 1 / xm2mg)

/-- `D3GDS0S2DP`, olivine.c 1409. -/
def D3GDS0S2DP : ℝ :=
  VS1S3

/-- `D3GDS0S3S3`, olivine.c 1411. -/
def D3GDS0S3S3 (t xm1mg xm2mg : ℝ) : ℝ :=
  (1 / 8) * R * t * (1 / xm2mg ^ 2 - 1 / xm1mg ^ 2)

/-- `D3GDS0S3DT`, olivine.c 1412. -/
def D3GDS0S3DT (xm1mg xm2mg : ℝ) : ℝ :=
  (-(1 / 4)) * R * (1 / xm1mg + 1 / xm2mg)

/-- `D3GDS0S3DP`, olivine.c 1413. -/
def D3GDS0S3DP : ℝ :=
  VS1S4

/-- `D3GDS0DT2`, olivine.c 1414. -/
def D3GDS0DT2 : ℝ :=
  0

/-- `D3GDS0DTDP`, olivine.c 1415. -/
def D3GDS0DTDP : ℝ :=
  0

/-- `D3GDS0DP2`, olivine.c 1416. -/
def D3GDS0DP2 : ℝ :=
  0

/-- `D3GDS1S1S1`, olivine.c 1418-1419. -/
def D3GDS1S1S1 (t xm1fe xm2fe xm1mg xm2mg : ℝ) : ℝ :=
  (1 / 8) * R * t * (1 / xm2mg ^ 2 - 1 / xm1mg ^ 2 + 1 / xm1fe ^ 2 - 1 / xm2fe ^ 2)

/-- `D3GDS1S1S2`, olivine.c 1420. -/
def D3GDS1S1S2 (t xm1mg xm2mg : ℝ) : ℝ :=
  (1 / 8) * R * t * (1 / xm1mg ^ 2 - 1 / xm2mg ^ 2)

/-- `D3GDS1S1S3`, olivine.c 1421. -/
def D3GDS1S1S3 (t xm1mg xm2mg : ℝ) : ℝ :=
  (1 / 8) * R * t * (1 / xm1mg ^ 2 - 1 / xm2mg ^ 2)

/-- `D3GDS1S1DT`, olivine.c 1422. -/
def D3GDS1S1DT (xm1fe xm2fe xm1mg xm2mg : ℝ) : ℝ :=
  (1 / 4) * R * (1 / xm1fe + 1 / xm2fe + 1 / xm1mg + 1 / xm2mg)

/-- `D3GDS1S1DP`, olivine.c 1423. -/
def D3GDS1S1DP : ℝ :=
  2 * VS2S2

/-- `D3GDS1S2S2`, olivine.c 1425. -/
def D3GDS1S2S2 (t xm1mg xm2mg : ℝ) : ℝ :=
  (1 / 8) * R * t * (1 / xm2mg ^ 2 - 1 / xm1mg ^ 2)

/-- `D3GDS1S2S3`, olivine.c 1426. -/
def D3GDS1S2S3 (t xm1mg xm2mg : ℝ) : ℝ :=
  (1 / 8) * R * t * (1 / xm2mg ^ 2 - 1 / xm1mg ^ 2)

/-- `D3GDS1S2DT`, olivine.c 1427. -/
def D3GDS1S2DT (xm1mg xm2mg : ℝ) : ℝ :=
  (-(1 / 4)) * R * (1 / xm1mg + 1 / xm2mg)

/-- `D3GDS1S2DP`, olivine.c 1428. -/
def D3GDS1S2DP : ℝ :=
  VS2S3

/-- `D3GDS1S3S3`, olivine.c 1430. -/
def D3GDS1S3S3 (t xm1mg xm2mg : ℝ) : ℝ :=
  (1 / 8) * R * t * (1 / xm2mg ^ 2 - 1 / xm1mg ^ 2)

/-- `D3GDS1S3DT`, olivine.c 1431. -/
def D3GDS1S3DT (xm1mg xm2mg : ℝ) : ℝ :=
  (-(1 / 4)) * R * (1 / xm1mg + 1 / xm2mg)

/-- `D3GDS1S3DP`, olivine.c 1432. -/
def D3GDS1S3DP : ℝ :=
  VS2S4

/-- `D3GDS1DT2`, olivine.c 1433. -/
def D3GDS1DT2 : ℝ :=
  0

/-- `D3GDS1DTDP`, olivine.c 1434. -/
def D3GDS1DTDP : ℝ :=
  0

/-- `D3GDS1DP2`, olivine.c 1435. -/
def D3GDS1DP2 : ℝ :=
  0

/-- `D3GDS2S2S2`, olivine.c 1437-1438. -/
def D3GDS2S2S2 (t xm1co xm2co xm1mg xm2mg : ℝ) : ℝ :=
  (1 / 8) * R * t * (1 / xm1mg ^ 2 - 1 / xm2mg ^ 2 + 1 / xm2co ^ 2 - 1 / xm1co ^ 2)

/-- `D3GDS2S2S3`, olivine.c 1439. -/
def D3GDS2S2S3 (t xm1mg xm2mg : ℝ) : ℝ :=
  (1 / 8) * R * t * (1 / xm1mg ^ 2 - 1 / xm2mg ^ 2)

/-- `D3GDS2S2DT`, olivine.c 1440. -/
def D3GDS2S2DT (xm1co xm2co xm1mg xm2mg : ℝ) : ℝ :=
  (1 / 4) * R * (1 / xm1co + 1 / xm2co + 1 / xm1mg + 1 / xm2mg)

/-- `D3GDS2S2DP`, olivine.c 1441. -/
def D3GDS2S2DP : ℝ :=
  2 * VS3S3

/-- `D3GDS2S3S3`, olivine.c 1443. -/
def D3GDS2S3S3 (t xm1mg xm2mg : ℝ) : ℝ :=
  (1 / 8) * R * t * (1 / xm1mg ^ 2 - 1 / xm2mg ^ 2)

/-- `D3GDS2S3DT`, olivine.c 1444. -/
def D3GDS2S3DT (xm1mg xm2mg : ℝ) : ℝ :=
  (1 / 4) * R * (1 / xm1mg + 1 / xm2mg)

/-- `D3GDS2S3DP`, olivine.c 1445. -/
def D3GDS2S3DP : ℝ :=
  VS3S4

/-- `D3GDS2DT2`, olivine.c 1446. -/
def D3GDS2DT2 : ℝ :=
  0

/-- `D3GDS2DTDP`, olivine.c 1447. -/
def D3GDS2DTDP : ℝ :=
  0

/-- `D3GDS2DP2`, olivine.c 1448. -/
def D3GDS2DP2 : ℝ :=
  0

/-- `D3GDS3S3S3`, olivine.c 1450-1451. -/
def D3GDS3S3S3 (t xm1ni xm2ni xm1mg xm2mg : ℝ) : ℝ :=
  (1 / 8) * R * t * (1 / xm1mg ^ 2 - 1 / xm2mg ^ 2 + 1 / xm2ni ^ 2 - 1 / xm1ni ^ 2)

/-- `D3GDS3S3DT`, olivine.c 1452. -/
def D3GDS3S3DT (xm1ni xm2ni xm1mg xm2mg : ℝ) : ℝ :=
  (1 / 4) * R * (1 / xm1ni + 1 / xm2ni + 1 / xm1mg + 1 / xm2mg)

/-- `D3GDS3S3DP`, olivine.c 1453. -/
def D3GDS3S3DP : ℝ :=
  2 * VS4S4

/-- `D3GDS3DT2`, olivine.c 1454. -/
def D3GDS3DT2 : ℝ :=
  0

/-- `D3GDS3DTDP`, olivine.c 1455. -/
def D3GDS3DTDP : ℝ :=
  0

/-- `D3GDS3DP2`, olivine.c 1456. -/
def D3GDS3DP2 : ℝ :=
  0

/-- `D3GDT3`, olivine.c 1458. -/
def D3GDT3 : ℝ :=
  0

/-- `D3GDT2DP`, olivine.c 1459. -/
def D3GDT2DP : ℝ :=
  0

/-- `D3GDTDP2`, olivine.c 1460. -/
def D3GDTDP2 : ℝ :=
  0

/-- `D3GDP3`, olivine.c 1461. -/
def D3GDP3 : ℝ :=
  0

/-- `D3GDR0DT2`, olivine.c 1463. -/
def D3GDR0DT2 : ℝ :=
  0

/-- `D3GDR0DTDP`, olivine.c 1464. -/
def D3GDR0DTDP : ℝ :=
  0

/-- `D3GDR0DP2`, olivine.c 1465. -/
def D3GDR0DP2 : ℝ :=
  0

/-- `D3GDR1DT2`, olivine.c 1466. -/
def D3GDR1DT2 : ℝ :=
  0

/-- `D3GDR1DTDP`, olivine.c 1467. -/
def D3GDR1DTDP : ℝ :=
  0

/-- `D3GDR1DP2`, olivine.c 1468. -/
def D3GDR1DP2 : ℝ :=
  0

/-- `D3GDR2DT2`, olivine.c 1469. -/
def D3GDR2DT2 : ℝ :=
  0

/-- `D3GDR2DTDP`, olivine.c 1470. -/
def D3GDR2DTDP : ℝ :=
  0

/-- `D3GDR2DP2`, olivine.c 1471. -/
def D3GDR2DP2 : ℝ :=
  0

/-- `D3GDR3DT2`, olivine.c 1472. -/
def D3GDR3DT2 : ℝ :=
  0

/-- `D3GDR3DTDP`, olivine.c 1473. -/
def D3GDR3DTDP : ℝ :=
  0

/-- `D3GDR3DP2`, olivine.c 1474. -/
def D3GDR3DP2 : ℝ :=
  0

/-- `D3GDR4DT2`, olivine.c 1475. -/
def D3GDR4DT2 : ℝ :=
  0

/-- `D3GDR4DTDP`, olivine.c 1476. -/
def D3GDR4DTDP : ℝ :=
  0

/-- `D3GDR4DP2`, olivine.c 1477. -/
def D3GDR4DP2 : ℝ :=
  0

/-- The arrays as the functions of olivine.c fill them (lines 1482-1833), for site fractions `x` and variables `y`. -/
def tables (x : Fin 11 → ℝ) (y : Var 5 4 → ℝ) : Tables 5 4 where
g := G (y (.inl iT)) (y (.inl iP)) (y (.inl (.inl 0))) (y (.inl (.inl 1))) (y (.inl (.inl 2))) (y (.inl
    (.inl 3))) (y (.inl (.inl 4))) (y (.inr 0)) (y (.inr 1)) (y (.inr 2)) (y (.inr 3)) (x 0) (x 1) (x 2) (x 3)
    (x 4) (x 5) (x 6) (x 7) (x 8) (x 9) (x 10)
s := S (x 0) (x 1) (x 2) (x 3) (x 4) (x 5) (x 6) (x 7) (x 8) (x 9) (x 10)
dgdr := ![DGDR0 (y (.inl iT)) (y (.inl iP)) (y (.inl (.inl 0))) (y (.inl (.inl 1))) (y (.inl (.inl 2))) (y
    (.inl (.inl 3))) (y (.inl (.inl 4))) (y (.inr 0)) (y (.inr 1)) (y (.inr 2)) (y (.inr 3)) (x 0) (x 1) (x 9)
    (x 10), DGDR1 (y (.inl iT)) (y (.inl iP)) (y (.inl (.inl 0))) (y (.inl (.inl 1))) (y (.inl (.inl 2))) (y
    (.inl (.inl 3))) (y (.inl (.inl 4))) (y (.inr 0)) (y (.inr 1)) (y (.inr 2)) (y (.inr 3)) (x 2) (x 3) (x 9)
    (x 10), DGDR2 (y (.inl iT)) (y (.inl iP)) (y (.inl (.inl 0))) (y (.inl (.inl 1))) (y (.inl (.inl 2))) (y
    (.inl (.inl 3))) (y (.inl (.inl 4))) (y (.inr 0)) (y (.inr 1)) (y (.inr 2)) (y (.inr 3)) (x 4) (x 5) (x 9)
    (x 10), DGDR3 (y (.inl iT)) (y (.inl iP)) (y (.inl (.inl 0))) (y (.inl (.inl 1))) (y (.inl (.inl 2))) (y
    (.inl (.inl 3))) (y (.inl (.inl 4))) (y (.inr 0)) (y (.inr 1)) (y (.inr 2)) (y (.inr 3)) (x 6) (x 7) (x 9)
    (x 10), DGDR4 (y (.inl iT)) (y (.inl iP)) (y (.inl (.inl 0))) (y (.inl (.inl 1))) (y (.inl (.inl 2))) (y
    (.inl (.inl 3))) (y (.inl (.inl 4))) (y (.inr 0)) (y (.inr 1)) (y (.inr 2)) (y (.inr 3)) (x 8) (x 10)]
dgds := ![DGDS0 (y (.inl iT)) (y (.inl iP)) (y (.inl (.inl 0))) (y (.inl (.inl 1))) (y (.inl (.inl 2))) (y
    (.inl (.inl 3))) (y (.inl (.inl 4))) (y (.inr 0)) (y (.inr 1)) (y (.inr 2)) (y (.inr 3)) (x 0) (x 1) (x 9)
    (x 10), DGDS1 (y (.inl iT)) (y (.inl iP)) (y (.inl (.inl 0))) (y (.inl (.inl 1))) (y (.inl (.inl 2))) (y
    (.inl (.inl 3))) (y (.inl (.inl 4))) (y (.inr 0)) (y (.inr 1)) (y (.inr 2)) (y (.inr 3)) (x 2) (x 3) (x 9)
    (x 10), DGDS2 (y (.inl iT)) (y (.inl iP)) (y (.inl (.inl 0))) (y (.inl (.inl 1))) (y (.inl (.inl 2))) (y
    (.inl (.inl 3))) (y (.inl (.inl 4))) (y (.inr 0)) (y (.inr 1)) (y (.inr 2)) (y (.inr 3)) (x 4) (x 5) (x 9)
    (x 10), DGDS3 (y (.inl iT)) (y (.inl iP)) (y (.inl (.inl 0))) (y (.inl (.inl 1))) (y (.inl (.inl 2))) (y
    (.inl (.inl 3))) (y (.inl (.inl 4))) (y (.inr 0)) (y (.inr 1)) (y (.inr 2)) (y (.inr 3)) (x 6) (x 7) (x 9)
    (x 10)]
dgdt := DGDT (x 0) (x 1) (x 2) (x 3) (x 4) (x 5) (x 6) (x 7) (x 8) (x 9) (x 10)
dgdp := DGDP (y (.inl (.inl 0))) (y (.inl (.inl 1))) (y (.inl (.inl 2))) (y (.inl (.inl 3))) (y (.inl (.inl
    4))) (y (.inr 0)) (y (.inr 1)) (y (.inr 2)) (y (.inr 3))
d2gdt2 := D2GDT2
d2gdtdp := D2GDTDP
d2gdp2 := D2GDP2
d3gdt3 := D3GDT3
d3gdt2dp := D3GDT2DP
d3gdtdp2 := D3GDTDP2
d3gdp3 := D3GDP3
d2gdr2 := ![![D2GDR0R0 (y (.inl iT)) (y (.inl iP)) (x 0) (x 1) (x 9) (x 10), D2GDR0R1 (y (.inl iT)) (y (.inl
    iP)) (x 9) (x 10), D2GDR0R2 (y (.inl iT)) (y (.inl iP)) (x 9) (x 10), D2GDR0R3 (y (.inl iT)) (y (.inl iP))
    (x 9) (x 10), D2GDR0R4 (y (.inl iT)) (y (.inl iP)) (x 10)], ![D2GDR0R1 (y (.inl iT)) (y (.inl iP)) (x 9) (x
    10), D2GDR1R1 (y (.inl iT)) (y (.inl iP)) (x 2) (x 3) (x 9) (x 10), D2GDR1R2 (y (.inl iT)) (y (.inl iP)) (x
    9) (x 10), D2GDR1R3 (y (.inl iT)) (y (.inl iP)) (x 9) (x 10), D2GDR1R4 (y (.inl iT)) (y (.inl iP)) (x 10)],
    ![D2GDR0R2 (y (.inl iT)) (y (.inl iP)) (x 9) (x 10), D2GDR1R2 (y (.inl iT)) (y (.inl iP)) (x 9) (x 10),
    D2GDR2R2 (y (.inl iT)) (y (.inl iP)) (x 4) (x 5) (x 9) (x 10), D2GDR2R3 (y (.inl iT)) (y (.inl iP)) (x 9) (x
    10), D2GDR2R4 (y (.inl iT)) (y (.inl iP)) (x 10)], ![D2GDR0R3 (y (.inl iT)) (y (.inl iP)) (x 9) (x 10),
    D2GDR1R3 (y (.inl iT)) (y (.inl iP)) (x 9) (x 10), D2GDR2R3 (y (.inl iT)) (y (.inl iP)) (x 9) (x 10),
    D2GDR3R3 (y (.inl iT)) (y (.inl iP)) (x 6) (x 7) (x 9) (x 10), D2GDR3R4 (y (.inl iT)) (y (.inl iP)) (x 10)],
    ![D2GDR0R4 (y (.inl iT)) (y (.inl iP)) (x 10), D2GDR1R4 (y (.inl iT)) (y (.inl iP)) (x 10), D2GDR2R4 (y
    (.inl iT)) (y (.inl iP)) (x 10), D2GDR3R4 (y (.inl iT)) (y (.inl iP)) (x 10), D2GDR4R4 (y (.inl iT)) (y
    (.inl iP)) (x 8) (x 10)]]
d2gdrds := ![![D2GDR0S0 (y (.inl iT)) (y (.inl iP)) (x 0) (x 1) (x 9) (x 10), D2GDR0S1 (y (.inl iT)) (y
    (.inl iP)) (x 9) (x 10), D2GDR0S2 (y (.inl iT)) (y (.inl iP)) (x 9) (x 10), D2GDR0S3 (y (.inl iT)) (y (.inl
    iP)) (x 9) (x 10)], ![D2GDR1S0 (y (.inl iT)) (y (.inl iP)) (x 9) (x 10), D2GDR1S1 (y (.inl iT)) (y (.inl
    iP)) (x 2) (x 3) (x 9) (x 10), D2GDR1S2 (y (.inl iT)) (y (.inl iP)) (x 9) (x 10), D2GDR1S3 (y (.inl iT)) (y
    (.inl iP)) (x 9) (x 10)], ![D2GDR2S0 (y (.inl iT)) (y (.inl iP)) (x 9) (x 10), D2GDR2S1 (y (.inl iT)) (y
    (.inl iP)) (x 9) (x 10), D2GDR2S2 (y (.inl iT)) (y (.inl iP)) (x 4) (x 5) (x 9) (x 10), D2GDR2S3 (y (.inl
    iT)) (y (.inl iP)) (x 9) (x 10)], ![D2GDR3S0 (y (.inl iT)) (y (.inl iP)) (x 9) (x 10), D2GDR3S1 (y (.inl
    iT)) (y (.inl iP)) (x 9) (x 10), D2GDR3S2 (y (.inl iT)) (y (.inl iP)) (x 9) (x 10), D2GDR3S3 (y (.inl iT))
    (y (.inl iP)) (x 6) (x 7) (x 9) (x 10)], ![D2GDR4S0 (y (.inl iT)) (y (.inl iP)) (x 10), D2GDR4S1 (y (.inl
    iT)) (y (.inl iP)) (x 10), D2GDR4S2 (y (.inl iT)) (y (.inl iP)) (x 10), D2GDR4S3 (y (.inl iT)) (y (.inl iP))
    (x 10)]]
d2gdrdt := ![D2GDR0DT (x 0) (x 1) (x 9) (x 10), D2GDR1DT (x 2) (x 3) (x 9) (x 10), D2GDR2DT (x 4) (x 5) (x
    9) (x 10), D2GDR3DT (x 6) (x 7) (x 9) (x 10), D2GDR4DT (x 8) (x 10)]
d2gdrdp := ![D2GDR0DP (y (.inl (.inl 0))) (y (.inl (.inl 1))) (y (.inl (.inl 2))) (y (.inl (.inl 3))) (y
    (.inl (.inl 4))) (y (.inr 0)) (y (.inr 1)) (y (.inr 2)) (y (.inr 3)), D2GDR1DP (y (.inl (.inl 0))) (y (.inl
    (.inl 1))) (y (.inl (.inl 2))) (y (.inl (.inl 3))) (y (.inl (.inl 4))) (y (.inr 0)) (y (.inr 1)) (y (.inr
    2)) (y (.inr 3)), D2GDR2DP (y (.inl (.inl 0))) (y (.inl (.inl 1))) (y (.inl (.inl 2))) (y (.inl (.inl 3)))
    (y (.inl (.inl 4))) (y (.inr 0)) (y (.inr 1)) (y (.inr 2)) (y (.inr 3)), D2GDR3DP (y (.inl (.inl 0))) (y
    (.inl (.inl 1))) (y (.inl (.inl 2))) (y (.inl (.inl 3))) (y (.inl (.inl 4))) (y (.inr 0)) (y (.inr 1)) (y
    (.inr 2)) (y (.inr 3)), D2GDR4DP (y (.inl (.inl 0))) (y (.inl (.inl 1))) (y (.inl (.inl 2))) (y (.inl (.inl
    3))) (y (.inl (.inl 4))) (y (.inr 0)) (y (.inr 1)) (y (.inr 2)) (y (.inr 3))]
d2gds2 := ![![D2GDS0S0 (y (.inl iT)) (y (.inl iP)) (x 0) (x 1) (x 9) (x 10), D2GDS0S1 (y (.inl iT)) (y (.inl
    iP)) (x 9) (x 10), D2GDS0S2 (y (.inl iT)) (y (.inl iP)) (x 9) (x 10), D2GDS0S3 (y (.inl iT)) (y (.inl iP))
    (x 9) (x 10)], ![D2GDS0S1 (y (.inl iT)) (y (.inl iP)) (x 9) (x 10), D2GDS1S1 (y (.inl iT)) (y (.inl iP)) (x
    2) (x 3) (x 9) (x 10), D2GDS1S2 (y (.inl iT)) (y (.inl iP)) (x 9) (x 10), D2GDS1S3 (y (.inl iT)) (y (.inl
    iP)) (x 9) (x 10)], ![D2GDS0S2 (y (.inl iT)) (y (.inl iP)) (x 9) (x 10), D2GDS1S2 (y (.inl iT)) (y (.inl
    iP)) (x 9) (x 10), D2GDS2S2 (y (.inl iT)) (y (.inl iP)) (x 4) (x 5) (x 9) (x 10), D2GDS2S3 (y (.inl iT)) (y
    (.inl iP)) (x 9) (x 10)], ![D2GDS0S3 (y (.inl iT)) (y (.inl iP)) (x 9) (x 10), D2GDS1S3 (y (.inl iT)) (y
    (.inl iP)) (x 9) (x 10), D2GDS2S3 (y (.inl iT)) (y (.inl iP)) (x 9) (x 10), D2GDS3S3 (y (.inl iT)) (y (.inl
    iP)) (x 6) (x 7) (x 9) (x 10)]]
d2gdsdt := ![D2GDS0DT (x 0) (x 1) (x 9) (x 10), D2GDS1DT (x 2) (x 3) (x 9) (x 10), D2GDS2DT (x 4) (x 5) (x
    9) (x 10), D2GDS3DT (x 6) (x 7) (x 9) (x 10)]
d2gdsdp := ![D2GDS0DP (y (.inl (.inl 0))) (y (.inl (.inl 1))) (y (.inl (.inl 2))) (y (.inl (.inl 3))) (y
    (.inl (.inl 4))) (y (.inr 0)) (y (.inr 1)) (y (.inr 2)) (y (.inr 3)), D2GDS1DP (y (.inl (.inl 0))) (y (.inl
    (.inl 1))) (y (.inl (.inl 2))) (y (.inl (.inl 3))) (y (.inl (.inl 4))) (y (.inr 0)) (y (.inr 1)) (y (.inr
    2)) (y (.inr 3)), D2GDS2DP (y (.inl (.inl 0))) (y (.inl (.inl 1))) (y (.inl (.inl 2))) (y (.inl (.inl 3)))
    (y (.inl (.inl 4))) (y (.inr 0)) (y (.inr 1)) (y (.inr 2)) (y (.inr 3)), D2GDS3DP (y (.inl (.inl 0))) (y
    (.inl (.inl 1))) (y (.inl (.inl 2))) (y (.inl (.inl 3))) (y (.inl (.inl 4))) (y (.inr 0)) (y (.inr 1)) (y
    (.inr 2)) (y (.inr 3))]
d3gdr3 := ![![![D3GDR0R0R0 (y (.inl iT)) (x 0) (x 1) (x 9) (x 10), D3GDR0R0R1 (y (.inl iT)) (x 9) (x 10),
    D3GDR0R0R1 (y (.inl iT)) (x 9) (x 10), D3GDR0R0R1 (y (.inl iT)) (x 9) (x 10), D3GDR4R0R0 (y (.inl iT)) (x
    10)], ![D3GDR0R0R1 (y (.inl iT)) (x 9) (x 10), D3GDR0R0R1 (y (.inl iT)) (x 9) (x 10), D3GDR0R0R1 (y (.inl
    iT)) (x 9) (x 10), D3GDR0R0R1 (y (.inl iT)) (x 9) (x 10), D3GDR4R0R0 (y (.inl iT)) (x 10)], ![D3GDR0R0R1 (y
    (.inl iT)) (x 9) (x 10), D3GDR0R0R1 (y (.inl iT)) (x 9) (x 10), D3GDR0R0R1 (y (.inl iT)) (x 9) (x 10),
    D3GDR0R0R1 (y (.inl iT)) (x 9) (x 10), D3GDR4R0R0 (y (.inl iT)) (x 10)], ![D3GDR0R0R1 (y (.inl iT)) (x 9) (x
    10), D3GDR0R0R1 (y (.inl iT)) (x 9) (x 10), D3GDR0R0R1 (y (.inl iT)) (x 9) (x 10), D3GDR0R0R1 (y (.inl iT))
    (x 9) (x 10), D3GDR4R0R0 (y (.inl iT)) (x 10)], ![D3GDR4R0R0 (y (.inl iT)) (x 10), D3GDR4R0R0 (y (.inl iT))
    (x 10), D3GDR4R0R0 (y (.inl iT)) (x 10), D3GDR4R0R0 (y (.inl iT)) (x 10), D3GDR4R4R0 (y (.inl iT)) (x 10)]],
    ![![D3GDR0R0R1 (y (.inl iT)) (x 9) (x 10), D3GDR0R0R1 (y (.inl iT)) (x 9) (x 10), D3GDR0R0R1 (y (.inl iT))
    (x 9) (x 10), D3GDR0R0R1 (y (.inl iT)) (x 9) (x 10), D3GDR4R0R0 (y (.inl iT)) (x 10)], ![D3GDR0R0R1 (y (.inl
    iT)) (x 9) (x 10), D3GDR1R1R1 (y (.inl iT)) (x 2) (x 3) (x 9) (x 10), D3GDR0R0R1 (y (.inl iT)) (x 9) (x 10),
    D3GDR0R0R1 (y (.inl iT)) (x 9) (x 10), D3GDR4R0R0 (y (.inl iT)) (x 10)], ![D3GDR0R0R1 (y (.inl iT)) (x 9) (x
    10), D3GDR0R0R1 (y (.inl iT)) (x 9) (x 10), D3GDR0R0R1 (y (.inl iT)) (x 9) (x 10), D3GDR0R0R1 (y (.inl iT))
    (x 9) (x 10), D3GDR4R0R0 (y (.inl iT)) (x 10)], ![D3GDR0R0R1 (y (.inl iT)) (x 9) (x 10), D3GDR0R0R1 (y (.inl
    iT)) (x 9) (x 10), D3GDR0R0R1 (y (.inl iT)) (x 9) (x 10), D3GDR0R0R1 (y (.inl iT)) (x 9) (x 10), D3GDR4R0R0
    (y (.inl iT)) (x 10)], ![D3GDR4R0R0 (y (.inl iT)) (x 10), D3GDR4R0R0 (y (.inl iT)) (x 10), D3GDR4R0R0 (y
    (.inl iT)) (x 10), D3GDR4R0R0 (y (.inl iT)) (x 10), D3GDR4R4R0 (y (.inl iT)) (x 10)]], ![![D3GDR0R0R1 (y
    (.inl iT)) (x 9) (x 10), D3GDR0R0R1 (y (.inl iT)) (x 9) (x 10), D3GDR0R0R1 (y (.inl iT)) (x 9) (x 10),
    D3GDR0R0R1 (y (.inl iT)) (x 9) (x 10), D3GDR4R0R0 (y (.inl iT)) (x 10)], ![D3GDR0R0R1 (y (.inl iT)) (x 9) (x
    10), D3GDR0R0R1 (y (.inl iT)) (x 9) (x 10), D3GDR0R0R1 (y (.inl iT)) (x 9) (x 10), D3GDR0R0R1 (y (.inl iT))
    (x 9) (x 10), D3GDR4R0R0 (y (.inl iT)) (x 10)], ![D3GDR0R0R1 (y (.inl iT)) (x 9) (x 10), D3GDR0R0R1 (y (.inl
    iT)) (x 9) (x 10), D3GDR2R2R2 (y (.inl iT)) (x 4) (x 5) (x 9) (x 10), D3GDR0R0R1 (y (.inl iT)) (x 9) (x 10),
    D3GDR4R0R0 (y (.inl iT)) (x 10)], ![D3GDR0R0R1 (y (.inl iT)) (x 9) (x 10), D3GDR0R0R1 (y (.inl iT)) (x 9) (x
    10), D3GDR0R0R1 (y (.inl iT)) (x 9) (x 10), D3GDR0R0R1 (y (.inl iT)) (x 9) (x 10), D3GDR4R0R0 (y (.inl iT))
    (x 10)], ![D3GDR4R0R0 (y (.inl iT)) (x 10), D3GDR4R0R0 (y (.inl iT)) (x 10), D3GDR4R0R0 (y (.inl iT)) (x
    10), D3GDR4R0R0 (y (.inl iT)) (x 10), D3GDR4R4R0 (y (.inl iT)) (x 10)]], ![![D3GDR0R0R1 (y (.inl iT)) (x 9)
    (x 10), D3GDR0R0R1 (y (.inl iT)) (x 9) (x 10), D3GDR0R0R1 (y (.inl iT)) (x 9) (x 10), D3GDR0R0R1 (y (.inl
    iT)) (x 9) (x 10), D3GDR4R0R0 (y (.inl iT)) (x 10)], ![D3GDR0R0R1 (y (.inl iT)) (x 9) (x 10), D3GDR0R0R1 (y
    (.inl iT)) (x 9) (x 10), D3GDR0R0R1 (y (.inl iT)) (x 9) (x 10), D3GDR0R0R1 (y (.inl iT)) (x 9) (x 10),
    D3GDR4R0R0 (y (.inl iT)) (x 10)], ![D3GDR0R0R1 (y (.inl iT)) (x 9) (x 10), D3GDR0R0R1 (y (.inl iT)) (x 9) (x
    10), D3GDR0R0R1 (y (.inl iT)) (x 9) (x 10), D3GDR0R0R1 (y (.inl iT)) (x 9) (x 10), D3GDR4R0R0 (y (.inl iT))
    (x 10)], ![D3GDR0R0R1 (y (.inl iT)) (x 9) (x 10), D3GDR0R0R1 (y (.inl iT)) (x 9) (x 10), D3GDR0R0R1 (y (.inl
    iT)) (x 9) (x 10), D3GDR3R3R3 (y (.inl iT)) (x 6) (x 7) (x 9) (x 10), D3GDR4R0R0 (y (.inl iT)) (x 10)],
    ![D3GDR4R0R0 (y (.inl iT)) (x 10), D3GDR4R0R0 (y (.inl iT)) (x 10), D3GDR4R0R0 (y (.inl iT)) (x 10),
    D3GDR4R0R0 (y (.inl iT)) (x 10), D3GDR4R4R0 (y (.inl iT)) (x 10)]], ![![D3GDR4R0R0 (y (.inl iT)) (x 10),
    D3GDR4R0R0 (y (.inl iT)) (x 10), D3GDR4R0R0 (y (.inl iT)) (x 10), D3GDR4R0R0 (y (.inl iT)) (x 10),
    D3GDR4R4R0 (y (.inl iT)) (x 10)], ![D3GDR4R0R0 (y (.inl iT)) (x 10), D3GDR4R0R0 (y (.inl iT)) (x 10),
    D3GDR4R0R0 (y (.inl iT)) (x 10), D3GDR4R0R0 (y (.inl iT)) (x 10), D3GDR4R4R0 (y (.inl iT)) (x 10)],
    ![D3GDR4R0R0 (y (.inl iT)) (x 10), D3GDR4R0R0 (y (.inl iT)) (x 10), D3GDR4R0R0 (y (.inl iT)) (x 10),
    D3GDR4R0R0 (y (.inl iT)) (x 10), D3GDR4R4R0 (y (.inl iT)) (x 10)], ![D3GDR4R0R0 (y (.inl iT)) (x 10),
    D3GDR4R0R0 (y (.inl iT)) (x 10), D3GDR4R0R0 (y (.inl iT)) (x 10), D3GDR4R0R0 (y (.inl iT)) (x 10),
    D3GDR4R4R0 (y (.inl iT)) (x 10)], ![D3GDR4R4R0 (y (.inl iT)) (x 10), D3GDR4R4R0 (y (.inl iT)) (x 10),
    D3GDR4R4R0 (y (.inl iT)) (x 10), D3GDR4R4R0 (y (.inl iT)) (x 10), D3GDR4R4R4 (y (.inl iT)) (x 8) (x 10)]]]
d3gdr2ds := ![![![D3GDR0R0S0 (y (.inl iT)) (x 0) (x 1) (x 9) (x 10), D3GDR0R0S1 (y (.inl iT)) (x 9) (x 10),
    D3GDR0R0S2 (y (.inl iT)) (x 9) (x 10), D3GDR0R0S3 (y (.inl iT)) (x 9) (x 10)], ![D3GDR0R1S0 (y (.inl iT)) (x
    9) (x 10), D3GDR0R1S1 (y (.inl iT)) (x 9) (x 10), D3GDR0R1S2 (y (.inl iT)) (x 9) (x 10), D3GDR0R1S3 (y (.inl
    iT)) (x 9) (x 10)], ![D3GDR0R2S0 (y (.inl iT)) (x 9) (x 10), D3GDR0R2S1 (y (.inl iT)) (x 9) (x 10),
    D3GDR0R2S2 (y (.inl iT)) (x 9) (x 10), D3GDR0R2S3 (y (.inl iT)) (x 9) (x 10)], ![D3GDR0R3S0 (y (.inl iT)) (x
    9) (x 10), D3GDR0R3S1 (y (.inl iT)) (x 9) (x 10), D3GDR0R3S2 (y (.inl iT)) (x 9) (x 10), D3GDR0R3S3 (y (.inl
    iT)) (x 9) (x 10)], ![D3GDR0R4S0 (y (.inl iT)) (x 10), D3GDR0R4S1 (y (.inl iT)) (x 10), D3GDR0R4S2 (y (.inl
    iT)) (x 10), D3GDR0R4S3 (y (.inl iT)) (x 10)]], ![![D3GDR0R1S0 (y (.inl iT)) (x 9) (x 10), D3GDR0R1S1 (y
    (.inl iT)) (x 9) (x 10), D3GDR0R1S2 (y (.inl iT)) (x 9) (x 10), D3GDR0R1S3 (y (.inl iT)) (x 9) (x 10)],
    ![D3GDR1R1S0 (y (.inl iT)) (x 9) (x 10), D3GDR1R1S1 (y (.inl iT)) (x 2) (x 3) (x 9) (x 10), D3GDR1R1S2 (y
    (.inl iT)) (x 9) (x 10), D3GDR1R1S3 (y (.inl iT)) (x 9) (x 10)], ![D3GDR1R2S0 (y (.inl iT)) (x 9) (x 10),
    D3GDR1R2S1 (y (.inl iT)) (x 9) (x 10), D3GDR1R2S2 (y (.inl iT)) (x 9) (x 10), D3GDR1R2S3 (y (.inl iT)) (x 9)
    (x 10)], ![D3GDR1R3S0 (y (.inl iT)) (x 9) (x 10), D3GDR1R3S1 (y (.inl iT)) (x 9) (x 10), D3GDR1R3S2 (y (.inl
    iT)) (x 9) (x 10), D3GDR1R3S3 (y (.inl iT)) (x 9) (x 10)], ![D3GDR1R4S0 (y (.inl iT)) (x 10), D3GDR1R4S1 (y
    (.inl iT)) (x 10), D3GDR1R4S2 (y (.inl iT)) (x 10), D3GDR1R4S3 (y (.inl iT)) (x 10)]], ![![D3GDR0R2S0 (y
    (.inl iT)) (x 9) (x 10), D3GDR0R2S1 (y (.inl iT)) (x 9) (x 10), D3GDR0R2S2 (y (.inl iT)) (x 9) (x 10),
    D3GDR0R2S3 (y (.inl iT)) (x 9) (x 10)], ![D3GDR1R2S0 (y (.inl iT)) (x 9) (x 10), D3GDR1R2S1 (y (.inl iT)) (x
    9) (x 10), D3GDR1R2S2 (y (.inl iT)) (x 9) (x 10), D3GDR1R2S3 (y (.inl iT)) (x 9) (x 10)], ![D3GDR2R2S0 (y
    (.inl iT)) (x 9) (x 10), D3GDR2R2S1 (y (.inl iT)) (x 9) (x 10), D3GDR2R2S2 (y (.inl iT)) (x 4) (x 5) (x 9)
    (x 10), D3GDR2R2S3 (y (.inl iT)) (x 9) (x 10)], ![D3GDR2R3S0 (y (.inl iT)) (x 9) (x 10), D3GDR2R3S1 (y (.inl
    iT)) (x 9) (x 10), D3GDR2R3S2 (y (.inl iT)) (x 9) (x 10), D3GDR2R3S3 (y (.inl iT)) (x 9) (x 10)],
    ![D3GDR2R4S0 (y (.inl iT)) (x 10), D3GDR2R4S1 (y (.inl iT)) (x 10), D3GDR2R4S2 (y (.inl iT)) (x 10),
    D3GDR2R4S3 (y (.inl iT)) (x 10)]], ![![D3GDR0R3S0 (y (.inl iT)) (x 9) (x 10), D3GDR0R3S1 (y (.inl iT)) (x 9)
    (x 10), D3GDR0R3S2 (y (.inl iT)) (x 9) (x 10), D3GDR0R3S3 (y (.inl iT)) (x 9) (x 10)], ![D3GDR1R3S0 (y (.inl
    iT)) (x 9) (x 10), D3GDR1R3S1 (y (.inl iT)) (x 9) (x 10), D3GDR1R3S2 (y (.inl iT)) (x 9) (x 10), D3GDR1R3S3
    (y (.inl iT)) (x 9) (x 10)], ![D3GDR2R3S0 (y (.inl iT)) (x 9) (x 10), D3GDR2R3S1 (y (.inl iT)) (x 9) (x 10),
    D3GDR2R3S2 (y (.inl iT)) (x 9) (x 10), D3GDR2R3S3 (y (.inl iT)) (x 9) (x 10)], ![D3GDR3R3S0 (y (.inl iT)) (x
    9) (x 10), D3GDR3R3S1 (y (.inl iT)) (x 9) (x 10), D3GDR3R3S2 (y (.inl iT)) (x 9) (x 10), D3GDR3R3S3 (y (.inl
    iT)) (x 6) (x 7) (x 9) (x 10)], ![D3GDR3R4S0 (y (.inl iT)) (x 10), D3GDR3R4S1 (y (.inl iT)) (x 10),
    D3GDR3R4S2 (y (.inl iT)) (x 10), D3GDR3R4S3 (y (.inl iT)) (x 10)]], ![![D3GDR0R4S0 (y (.inl iT)) (x 10),
    D3GDR0R4S1 (y (.inl iT)) (x 10), D3GDR0R4S2 (y (.inl iT)) (x 10), D3GDR0R4S3 (y (.inl iT)) (x 10)],
    ![D3GDR1R4S0 (y (.inl iT)) (x 10), D3GDR1R4S1 (y (.inl iT)) (x 10), D3GDR1R4S2 (y (.inl iT)) (x 10),
    D3GDR1R4S3 (y (.inl iT)) (x 10)], ![D3GDR2R4S0 (y (.inl iT)) (x 10), D3GDR2R4S1 (y (.inl iT)) (x 10),
    D3GDR2R4S2 (y (.inl iT)) (x 10), D3GDR2R4S3 (y (.inl iT)) (x 10)], ![D3GDR3R4S0 (y (.inl iT)) (x 10),
    D3GDR3R4S1 (y (.inl iT)) (x 10), D3GDR3R4S2 (y (.inl iT)) (x 10), D3GDR3R4S3 (y (.inl iT)) (x 10)],
    ![D3GDR4R4S0 (y (.inl iT)) (x 10), D3GDR4R4S1 (y (.inl iT)) (x 10), D3GDR4R4S2 (y (.inl iT)) (x 10),
    D3GDR4R4S3 (y (.inl iT)) (x 10)]]]
d3gdr2dt := ![![D3GDR0R0DT (x 0) (x 1) (x 9) (x 10), D3GDR0R1DT (x 9) (x 10), D3GDR0R2DT (x 9) (x 10),
    D3GDR0R3DT (x 9) (x 10), D3GDR0R4DT (x 10)], ![D3GDR0R1DT (x 9) (x 10), D3GDR1R1DT (x 2) (x 3) (x 9) (x 10),
    D3GDR1R2DT (x 9) (x 10), D3GDR1R3DT (x 9) (x 10), D3GDR1R4DT (x 10)], ![D3GDR0R2DT (x 9) (x 10), D3GDR1R2DT
    (x 9) (x 10), D3GDR2R2DT (x 4) (x 5) (x 9) (x 10), D3GDR2R3DT (x 9) (x 10), D3GDR2R4DT (x 10)], ![D3GDR0R3DT
    (x 9) (x 10), D3GDR1R3DT (x 9) (x 10), D3GDR2R3DT (x 9) (x 10), D3GDR3R3DT (x 6) (x 7) (x 9) (x 10),
    D3GDR3R4DT (x 10)], ![D3GDR0R4DT (x 10), D3GDR1R4DT (x 10), D3GDR2R4DT (x 10), D3GDR3R4DT (x 10), D3GDR4R4DT
    (x 8) (x 10)]]
d3gdr2dp := ![![D3GDR0R0DP, D3GDR0R1DP, D3GDR0R2DP, D3GDR0R3DP, D3GDR0R4DP], ![D3GDR0R1DP, D3GDR1R1DP,
    D3GDR1R2DP, D3GDR1R3DP, D3GDR1R4DP], ![D3GDR0R2DP, D3GDR1R2DP, D3GDR2R2DP, D3GDR2R3DP, D3GDR2R4DP],
    ![D3GDR0R3DP, D3GDR1R3DP, D3GDR2R3DP, D3GDR3R3DP, D3GDR3R4DP], ![D3GDR0R4DP, D3GDR1R4DP, D3GDR2R4DP,
    D3GDR3R4DP, D3GDR4R4DP]]
d3gdrds2 := ![![![D3GDR0S0S0 (y (.inl iT)) (x 0) (x 1) (x 9) (x 10), D3GDR0S0S1 (y (.inl iT)) (x 9) (x 10),
    D3GDR0S0S2 (y (.inl iT)) (x 9) (x 10), D3GDR0S0S3 (y (.inl iT)) (x 9) (x 10)], ![D3GDR0S0S1 (y (.inl iT)) (x
    9) (x 10), D3GDR0S1S1 (y (.inl iT)) (x 9) (x 10), D3GDR0S1S2 (y (.inl iT)) (x 9) (x 10), D3GDR0S1S3 (y (.inl
    iT)) (x 9) (x 10)], ![D3GDR0S0S2 (y (.inl iT)) (x 9) (x 10), D3GDR0S1S2 (y (.inl iT)) (x 9) (x 10),
    D3GDR0S2S2 (y (.inl iT)) (x 9) (x 10), D3GDR0S2S3 (y (.inl iT)) (x 9) (x 10)], ![D3GDR0S0S3 (y (.inl iT)) (x
    9) (x 10), D3GDR0S1S3 (y (.inl iT)) (x 9) (x 10), D3GDR0S2S3 (y (.inl iT)) (x 9) (x 10), D3GDR0S3S3 (y (.inl
    iT)) (x 9) (x 10)]], ![![D3GDR1S0S0 (y (.inl iT)) (x 9) (x 10), D3GDR1S0S1 (y (.inl iT)) (x 9) (x 10),
    D3GDR1S0S2 (y (.inl iT)) (x 9) (x 10), D3GDR1S0S3 (y (.inl iT)) (x 9) (x 10)], ![D3GDR1S0S1 (y (.inl iT)) (x
    9) (x 10), D3GDR1S1S1 (y (.inl iT)) (x 2) (x 3) (x 9) (x 10), D3GDR1S1S2 (y (.inl iT)) (x 9) (x 10),
    D3GDR1S1S3 (y (.inl iT)) (x 9) (x 10)], ![D3GDR1S0S2 (y (.inl iT)) (x 9) (x 10), D3GDR1S1S2 (y (.inl iT)) (x
    9) (x 10), D3GDR1S2S2 (y (.inl iT)) (x 9) (x 10), D3GDR1S2S3 (y (.inl iT)) (x 9) (x 10)], ![D3GDR1S0S3 (y
    (.inl iT)) (x 9) (x 10), D3GDR1S1S3 (y (.inl iT)) (x 9) (x 10), D3GDR1S2S3 (y (.inl iT)) (x 9) (x 10),
    D3GDR1S3S3 (y (.inl iT)) (x 9) (x 10)]], ![![D3GDR2S0S0 (y (.inl iT)) (x 9) (x 10), D3GDR2S0S1 (y (.inl iT))
    (x 9) (x 10), D3GDR2S0S2 (y (.inl iT)) (x 9) (x 10), D3GDR2S0S3 (y (.inl iT)) (x 9) (x 10)], ![D3GDR2S0S1 (y
    (.inl iT)) (x 9) (x 10), D3GDR2S1S1 (y (.inl iT)) (x 9) (x 10), D3GDR2S1S2 (y (.inl iT)) (x 9) (x 10),
    D3GDR2S1S3 (y (.inl iT)) (x 9) (x 10)], ![D3GDR2S0S2 (y (.inl iT)) (x 9) (x 10), D3GDR2S1S2 (y (.inl iT)) (x
    9) (x 10), D3GDR2S2S2 (y (.inl iT)) (x 4) (x 5) (x 9) (x 10), D3GDR2S2S3 (y (.inl iT)) (x 9) (x 10)],
    ![D3GDR2S0S3 (y (.inl iT)) (x 9) (x 10), D3GDR2S1S3 (y (.inl iT)) (x 9) (x 10), D3GDR2S2S3 (y (.inl iT)) (x
    9) (x 10), D3GDR2S3S3 (y (.inl iT)) (x 9) (x 10)]], ![![D3GDR3S0S0 (y (.inl iT)) (x 9) (x 10), D3GDR3S0S1 (y
    (.inl iT)) (x 9) (x 10), D3GDR3S0S2 (y (.inl iT)) (x 9) (x 10), D3GDR3S0S3 (y (.inl iT)) (x 9) (x 10)],
    ![D3GDR3S0S1 (y (.inl iT)) (x 9) (x 10), D3GDR3S1S1 (y (.inl iT)) (x 9) (x 10), D3GDR3S1S2 (y (.inl iT)) (x
    9) (x 10), D3GDR3S1S3 (y (.inl iT)) (x 9) (x 10)], ![D3GDR3S0S2 (y (.inl iT)) (x 9) (x 10), D3GDR3S1S2 (y
    (.inl iT)) (x 9) (x 10), D3GDR3S2S2 (y (.inl iT)) (x 9) (x 10), D3GDR3S2S3 (y (.inl iT)) (x 9) (x 10)],
    ![D3GDR3S0S3 (y (.inl iT)) (x 9) (x 10), D3GDR3S1S3 (y (.inl iT)) (x 9) (x 10), D3GDR3S2S3 (y (.inl iT)) (x
    9) (x 10), D3GDR3S3S3 (y (.inl iT)) (x 6) (x 7) (x 9) (x 10)]], ![![D3GDR4S0S0 (y (.inl iT)) (x 10),
    D3GDR4S0S1 (y (.inl iT)) (x 10), D3GDR4S0S2 (y (.inl iT)) (x 10), D3GDR4S0S3 (y (.inl iT)) (x 10)],
    ![D3GDR4S0S1 (y (.inl iT)) (x 10), D3GDR4S1S1 (y (.inl iT)) (x 10), D3GDR4S1S2 (y (.inl iT)) (x 10),
    D3GDR4S1S3 (y (.inl iT)) (x 10)], ![D3GDR4S0S2 (y (.inl iT)) (x 10), D3GDR4S1S2 (y (.inl iT)) (x 10),
    D3GDR4S2S2 (y (.inl iT)) (x 10), D3GDR4S2S3 (y (.inl iT)) (x 10)], ![D3GDR4S0S3 (y (.inl iT)) (x 10),
    D3GDR4S1S3 (y (.inl iT)) (x 10), D3GDR4S2S3 (y (.inl iT)) (x 10), D3GDR4S3S3 (y (.inl iT)) (x 10)]]]
d3gdrdsdt := ![![D3GDR0S0DT (x 0) (x 1) (x 9) (x 10), D3GDR0S1DT (x 9) (x 10), D3GDR0S2DT (x 9) (x 10),
    D3GDR0S3DT (x 9) (x 10)], ![D3GDR1S0DT (x 9) (x 10), D3GDR1S1DT (x 2) (x 3) (x 9) (x 10), D3GDR1S2DT (x 9)
    (x 10), D3GDR1S3DT (x 9) (x 10)], ![D3GDR2S0DT (x 9) (x 10), D3GDR2S1DT (x 9) (x 10), D3GDR2S2DT (x 4) (x 5)
    (x 9) (x 10), D3GDR2S3DT (x 9) (x 10)], ![D3GDR3S0DT (x 9) (x 10), D3GDR3S1DT (x 9) (x 10), D3GDR3S2DT (x 9)
    (x 10), D3GDR3S3DT (x 6) (x 7) (x 9) (x 10)], ![D3GDR4S0DT (x 10), D3GDR4S1DT (x 10), D3GDR4S2DT (x 10),
    D3GDR4S3DT (x 10)]]
d3gdrdsdp := ![![D3GDR0S0DP, D3GDR0S1DP, D3GDR0S2DP, D3GDR0S3DP], ![D3GDR1S0DP, D3GDR1S1DP, D3GDR1S2DP,
    D3GDR1S3DP], ![D3GDR2S0DP, D3GDR2S1DP, D3GDR2S2DP, D3GDR2S3DP], ![D3GDR3S0DP, D3GDR3S1DP, D3GDR3S2DP,
    D3GDR3S3DP], ![D3GDR4S0DP, D3GDR4S1DP, D3GDR4S2DP, D3GDR4S3DP]]
d3gdrdt2 := ![D3GDR0DT2, D3GDR1DT2, D3GDR2DT2, D3GDR3DT2, D3GDR4DT2]
d3gdrdtdp := ![D3GDR0DTDP, D3GDR1DTDP, D3GDR2DTDP, D3GDR3DTDP, D3GDR4DTDP]
d3gdrdp2 := ![D3GDR0DP2, D3GDR1DP2, D3GDR2DP2, D3GDR3DP2, D3GDR4DP2]
d3gds3 := ![![![D3GDS0S0S0 (y (.inl iT)) (x 0) (x 1) (x 9) (x 10), D3GDS0S0S1 (y (.inl iT)) (x 9) (x 10),
    D3GDS0S0S2 (y (.inl iT)) (x 9) (x 10), D3GDS0S0S3 (y (.inl iT)) (x 9) (x 10)], ![D3GDS0S0S1 (y (.inl iT)) (x
    9) (x 10), D3GDS0S1S1 (y (.inl iT)) (x 9) (x 10), D3GDS0S1S2 (y (.inl iT)) (x 9) (x 10), D3GDS0S1S3 (y (.inl
    iT)) (x 9) (x 10)], ![D3GDS0S0S2 (y (.inl iT)) (x 9) (x 10), D3GDS0S1S2 (y (.inl iT)) (x 9) (x 10),
    D3GDS0S2S2 (y (.inl iT)) (x 9) (x 10), D3GDS0S2S3 (y (.inl iT)) (x 9) (x 10)], ![D3GDS0S0S3 (y (.inl iT)) (x
    9) (x 10), D3GDS0S1S3 (y (.inl iT)) (x 9) (x 10), D3GDS0S2S3 (y (.inl iT)) (x 9) (x 10), D3GDS0S3S3 (y (.inl
    iT)) (x 9) (x 10)]], ![![D3GDS0S0S1 (y (.inl iT)) (x 9) (x 10), D3GDS0S1S1 (y (.inl iT)) (x 9) (x 10),
    D3GDS0S1S2 (y (.inl iT)) (x 9) (x 10), D3GDS0S1S3 (y (.inl iT)) (x 9) (x 10)], ![D3GDS0S1S1 (y (.inl iT)) (x
    9) (x 10), D3GDS1S1S1 (y (.inl iT)) (x 2) (x 3) (x 9) (x 10), D3GDS1S1S2 (y (.inl iT)) (x 9) (x 10),
    D3GDS1S1S3 (y (.inl iT)) (x 9) (x 10)], ![D3GDS0S1S2 (y (.inl iT)) (x 9) (x 10), D3GDS1S1S2 (y (.inl iT)) (x
    9) (x 10), D3GDS1S2S2 (y (.inl iT)) (x 9) (x 10), D3GDS1S2S3 (y (.inl iT)) (x 9) (x 10)], ![D3GDS0S1S3 (y
    (.inl iT)) (x 9) (x 10), D3GDS1S1S3 (y (.inl iT)) (x 9) (x 10), D3GDS1S2S3 (y (.inl iT)) (x 9) (x 10),
    D3GDS1S3S3 (y (.inl iT)) (x 9) (x 10)]], ![![D3GDS0S0S2 (y (.inl iT)) (x 9) (x 10), D3GDS0S1S2 (y (.inl iT))
    (x 9) (x 10), D3GDS0S2S2 (y (.inl iT)) (x 9) (x 10), D3GDS0S2S3 (y (.inl iT)) (x 9) (x 10)], ![D3GDS0S1S2 (y
    (.inl iT)) (x 9) (x 10), D3GDS1S1S2 (y (.inl iT)) (x 9) (x 10), D3GDS1S2S2 (y (.inl iT)) (x 9) (x 10),
    D3GDS1S2S3 (y (.inl iT)) (x 9) (x 10)], ![D3GDS0S2S2 (y (.inl iT)) (x 9) (x 10), D3GDS1S2S2 (y (.inl iT)) (x
    9) (x 10), D3GDS2S2S2 (y (.inl iT)) (x 4) (x 5) (x 9) (x 10), D3GDS2S2S3 (y (.inl iT)) (x 9) (x 10)],
    ![D3GDS0S2S3 (y (.inl iT)) (x 9) (x 10), D3GDS1S2S3 (y (.inl iT)) (x 9) (x 10), D3GDS2S2S3 (y (.inl iT)) (x
    9) (x 10), D3GDS2S3S3 (y (.inl iT)) (x 9) (x 10)]], ![![D3GDS0S0S3 (y (.inl iT)) (x 9) (x 10), D3GDS0S1S3 (y
    (.inl iT)) (x 9) (x 10), D3GDS0S2S3 (y (.inl iT)) (x 9) (x 10), D3GDS0S3S3 (y (.inl iT)) (x 9) (x 10)],
    ![D3GDS0S1S3 (y (.inl iT)) (x 9) (x 10), D3GDS1S1S3 (y (.inl iT)) (x 9) (x 10), D3GDS1S2S3 (y (.inl iT)) (x
    9) (x 10), D3GDS1S3S3 (y (.inl iT)) (x 9) (x 10)], ![D3GDS0S2S3 (y (.inl iT)) (x 9) (x 10), D3GDS1S2S3 (y
    (.inl iT)) (x 9) (x 10), D3GDS2S2S3 (y (.inl iT)) (x 9) (x 10), D3GDS2S3S3 (y (.inl iT)) (x 9) (x 10)],
    ![D3GDS0S3S3 (y (.inl iT)) (x 9) (x 10), D3GDS1S3S3 (y (.inl iT)) (x 9) (x 10), D3GDS2S3S3 (y (.inl iT)) (x
    9) (x 10), D3GDS3S3S3 (y (.inl iT)) (x 6) (x 7) (x 9) (x 10)]]]
d3gds2dt := ![![D3GDS0S0DT (x 0) (x 1) (x 9) (x 10), D3GDS0S1DT (x 9) (x 10), D3GDS0S2DT (x 9) (x 10),
    D3GDS0S3DT (x 9) (x 10)], ![D3GDS0S1DT (x 9) (x 10), D3GDS1S1DT (x 2) (x 3) (x 9) (x 10), D3GDS1S2DT (x 9)
    (x 10), D3GDS1S3DT (x 9) (x 10)], ![D3GDS0S2DT (x 9) (x 10), D3GDS1S2DT (x 9) (x 10), D3GDS2S2DT (x 4) (x 5)
    (x 9) (x 10), D3GDS2S3DT (x 9) (x 10)], ![D3GDS0S3DT (x 9) (x 10), D3GDS1S3DT (x 9) (x 10), D3GDS2S3DT (x 9)
    (x 10), D3GDS3S3DT (x 6) (x 7) (x 9) (x 10)]]
d3gds2dp := ![![D3GDS0S0DP, D3GDS0S1DP, D3GDS0S2DP, D3GDS0S3DP], ![D3GDS0S1DP, D3GDS1S1DP, D3GDS1S2DP,
    D3GDS1S3DP], ![D3GDS0S2DP, D3GDS1S2DP, D3GDS2S2DP, D3GDS2S3DP], ![D3GDS0S3DP, D3GDS1S3DP, D3GDS2S3DP,
    D3GDS3S3DP]]
d3gdsdt2 := ![D3GDS0DT2, D3GDS1DT2, D3GDS2DT2, D3GDS3DT2]
d3gdsdtdp := ![D3GDS0DTDP, D3GDS1DTDP, D3GDS2DTDP, D3GDS3DTDP]
d3gdsdp2 := ![D3GDS0DP2, D3GDS1DP2, D3GDS2DP2, D3GDS3DP2]

/-- Site fractions before they are kept inside their bounds, olivine.c 1915-1937. -/
def raw (y : Var 5 4 → ℝ) : Fin 11 → ℝ :=
  ![((y (.inl (.inl 0))) - (y (.inr 0)) + 1) / 2, ((y (.inl (.inl 0))) + (y (.inr 0)) + 1) / 2, ((y (.inl
    (.inl 1))) - (y (.inr 1)) + 1) / 2, ((y (.inl (.inl 1))) + (y (.inr 1)) + 1) / 2, ((y (.inl (.inl 2))) + (y
    (.inr 2)) + 1) / 2, ((y (.inl (.inl 2))) - (y (.inr 2)) + 1) / 2, ((y (.inl (.inl 3))) + (y (.inr 3)) + 1) /
    2, ((y (.inl (.inl 3))) - (y (.inr 3)) + 1) / 2, (y (.inl (.inl 4))), 1 - ((y (.inl (.inl 0))) - (y (.inr
    0)) + 1) / 2 - ((y (.inl (.inl 1))) - (y (.inr 1)) + 1) / 2 - ((y (.inl (.inl 2))) + (y (.inr 2)) + 1) / 2 -
    ((y (.inl (.inl 3))) + (y (.inr 3)) + 1) / 2, 1 - ((y (.inl (.inl 0))) + (y (.inr 0)) + 1) / 2 - ((y (.inl
    (.inl 1))) + (y (.inr 1)) + 1) / 2 - ((y (.inl (.inl 2))) - (y (.inr 2)) + 1) / 2 - ((y (.inl (.inl 3))) -
    (y (.inr 3)) + 1) / 2 - (y (.inl (.inl 4)))]

/-- Bounds applied to the site fractions, olivine.c 1915-1937. -/
def site (y : Var 5 4 → ℝ) : Fin 11 → ℝ :=
  ![keepAbove dblEps (raw y 0), keepAbove dblEps (raw y 1), keepAbove dblEps (raw y 2), keepAbove dblEps (raw
    y 3), keepAbove dblEps (raw y 4), keepAbove dblEps (raw y 5), keepAbove dblEps (raw y 6), keepAbove dblEps
    (raw y 7), keepAbove dblEps (raw y 8), keepAbove dblEps (raw y 9), keepAbove dblEps (raw y 10)]

/-- The macros of olivine.c at given composition, conditions and ordering state. -/
def macros (y : Var 5 4 → ℝ) : Tables 5 4 := tables (site y) y

/-- Where no bound on the site fractions is active. -/
def Dom (y : Var 5 4 → ℝ) : Prop :=
  (dblEps < raw y 0) ∧ (dblEps < raw y 1) ∧ (dblEps < raw y 2) ∧ (dblEps < raw y 3) ∧ (dblEps < raw y 4) ∧
    (dblEps < raw y 5) ∧ (dblEps < raw y 6) ∧ (dblEps < raw y 7) ∧ (dblEps < raw y 8) ∧ (dblEps < raw y 9) ∧
    (dblEps < raw y 10)

lemma k_G0 {p : ℝ → ℝ} {v dp : ℝ} (hp : HasDerivAt p dp v) : HasDerivAt (fun v => G0 (p v)) (V0 * dp) v := by
  simp only [GXMNFE, W1MNFE, W2MNFE, GXMNCO, W1MNCO, W2MNCO, GXMNNI, W1MNNI, W2MNNI, GXFECO, W1FECO, W2FECO, GXFENI, W1FENI, W2FENI, GXCONI, W1CONI, W2CONI, GXMGMN, W1MGMN, W2MGMN, GXMGFE, W1MGFE, W2MGFE, GXMGCO, W1MGCO, W2MGCO, GXMGNI, W1MGNI, W2MGNI, G0, V0]
  refine HasDerivAt.congr_deriv (by hdo) ?_
  ring

lemma kd_G0 (y : Var 5 4 → ℝ) : DifferentiableAt ℝ (fun y : Var 5 4 → ℝ => G0 (y (.inl iP))) y := by
  simp only [GXMNFE, W1MNFE, W2MNFE, GXMNCO, W1MNCO, W2MNCO, GXMNNI, W1MNNI, W2MNNI, GXFECO, W1FECO, W2FECO, GXFENI, W1FENI, W2FENI, GXCONI, W1CONI, W2CONI, GXMGMN, W1MGMN, W2MGMN, GXMGFE, W1MGFE, W2MGFE, GXMGCO, W1MGCO, W2MGCO, GXMGNI, W1MGNI, W2MGNI, G0]
  ddo

lemma k_GXMNFE {p : ℝ → ℝ} {v dp : ℝ} (hp : HasDerivAt p dp v) : HasDerivAt (fun v => GXMNFE (p v)) (VXMNFE * dp) v := by
  simp only [GXMNFE]
  refine HasDerivAt.congr_deriv (by hdo) ?_
  ring

lemma kd_GXMNFE (y : Var 5 4 → ℝ) : DifferentiableAt ℝ (fun y : Var 5 4 → ℝ => GXMNFE (y (.inl iP))) y := by
  simp only [GXMNFE]
  ddo

lemma k_GXMNCO {p : ℝ → ℝ} {v dp : ℝ} (hp : HasDerivAt p dp v) : HasDerivAt (fun v => GXMNCO (p v)) (VXMNCO * dp) v := by
  simp only [GXMNCO]
  refine HasDerivAt.congr_deriv (by hdo) ?_
  ring

lemma kd_GXMNCO (y : Var 5 4 → ℝ) : DifferentiableAt ℝ (fun y : Var 5 4 → ℝ => GXMNCO (y (.inl iP))) y := by
  simp only [GXMNCO]
  ddo

lemma k_GXMNNI {p : ℝ → ℝ} {v dp : ℝ} (hp : HasDerivAt p dp v) : HasDerivAt (fun v => GXMNNI (p v)) (VXMNNI * dp) v := by
  simp only [GXMNNI]
  refine HasDerivAt.congr_deriv (by hdo) ?_
  ring

lemma kd_GXMNNI (y : Var 5 4 → ℝ) : DifferentiableAt ℝ (fun y : Var 5 4 → ℝ => GXMNNI (y (.inl iP))) y := by
  simp only [GXMNNI]
  ddo

lemma k_GXFECO {p : ℝ → ℝ} {v dp : ℝ} (hp : HasDerivAt p dp v) : HasDerivAt (fun v => GXFECO (p v)) (VXFECO * dp) v := by
  simp only [GXFECO]
  refine HasDerivAt.congr_deriv (by hdo) ?_
  ring

lemma kd_GXFECO (y : Var 5 4 → ℝ) : DifferentiableAt ℝ (fun y : Var 5 4 → ℝ => GXFECO (y (.inl iP))) y := by
  simp only [GXFECO]
  ddo

lemma k_GXFENI {p : ℝ → ℝ} {v dp : ℝ} (hp : HasDerivAt p dp v) : HasDerivAt (fun v => GXFENI (p v)) (VXFENI * dp) v := by
  simp only [GXFENI]
  refine HasDerivAt.congr_deriv (by hdo) ?_
  ring

lemma kd_GXFENI (y : Var 5 4 → ℝ) : DifferentiableAt ℝ (fun y : Var 5 4 → ℝ => GXFENI (y (.inl iP))) y := by
  simp only [GXFENI]
  ddo

lemma k_GXCONI {p : ℝ → ℝ} {v dp : ℝ} (hp : HasDerivAt p dp v) : HasDerivAt (fun v => GXCONI (p v)) (VXCONI * dp) v := by
  simp only [GXCONI]
  refine HasDerivAt.congr_deriv (by hdo) ?_
  ring

lemma kd_GXCONI (y : Var 5 4 → ℝ) : DifferentiableAt ℝ (fun y : Var 5 4 → ℝ => GXCONI (y (.inl iP))) y := by
  simp only [GXCONI]
  ddo

lemma k_GXMGMN {p : ℝ → ℝ} {v dp : ℝ} (hp : HasDerivAt p dp v) : HasDerivAt (fun v => GXMGMN (p v)) (VXMGMN * dp) v := by
  simp only [GXMGMN]
  refine HasDerivAt.congr_deriv (by hdo) ?_
  ring

lemma kd_GXMGMN (y : Var 5 4 → ℝ) : DifferentiableAt ℝ (fun y : Var 5 4 → ℝ => GXMGMN (y (.inl iP))) y := by
  simp only [GXMGMN]
  ddo

lemma k_GXMGFE {p : ℝ → ℝ} {v dp : ℝ} (hp : HasDerivAt p dp v) : HasDerivAt (fun v => GXMGFE (p v)) (VXMGFE * dp) v := by
  simp only [GXMGFE]
  refine HasDerivAt.congr_deriv (by hdo) ?_
  ring

lemma kd_GXMGFE (y : Var 5 4 → ℝ) : DifferentiableAt ℝ (fun y : Var 5 4 → ℝ => GXMGFE (y (.inl iP))) y := by
  simp only [GXMGFE]
  ddo

lemma k_GXMGCO {p : ℝ → ℝ} {v dp : ℝ} (hp : HasDerivAt p dp v) : HasDerivAt (fun v => GXMGCO (p v)) (VXMGCO * dp) v := by
  simp only [GXMGCO]
  refine HasDerivAt.congr_deriv (by hdo) ?_
  ring

lemma kd_GXMGCO (y : Var 5 4 → ℝ) : DifferentiableAt ℝ (fun y : Var 5 4 → ℝ => GXMGCO (y (.inl iP))) y := by
  simp only [GXMGCO]
  ddo

lemma k_GXMGNI {p : ℝ → ℝ} {v dp : ℝ} (hp : HasDerivAt p dp v) : HasDerivAt (fun v => GXMGNI (p v)) (VXMGNI * dp) v := by
  simp only [GXMGNI]
  refine HasDerivAt.congr_deriv (by hdo) ?_
  ring

lemma kd_GXMGNI (y : Var 5 4 → ℝ) : DifferentiableAt ℝ (fun y : Var 5 4 → ℝ => GXMGNI (y (.inl iP))) y := by
  simp only [GXMGNI]
  ddo

lemma k_GR1 {p : ℝ → ℝ} {v dp : ℝ} (hp : HasDerivAt p dp v) : HasDerivAt (fun v => GR1 (p v)) (VR1 * dp) v := by
  simp only [GXMGMN, W1MGMN, W2MGMN, GXMGFE, W1MGFE, W2MGFE, GXMGCO, W1MGCO, W2MGCO, GXMGNI, W1MGNI, W2MGNI, GXMNFE, W1MNFE, W2MNFE, GXMNCO, W1MNCO, W2MNCO, GXMNNI, W1MNNI, W2MNNI, GR1, VR1]
  refine HasDerivAt.congr_deriv (by hdo) ?_
  ring

lemma kd_GR1 (y : Var 5 4 → ℝ) : DifferentiableAt ℝ (fun y : Var 5 4 → ℝ => GR1 (y (.inl iP))) y := by
  simp only [GXMGMN, W1MGMN, W2MGMN, GXMGFE, W1MGFE, W2MGFE, GXMGCO, W1MGCO, W2MGCO, GXMGNI, W1MGNI, W2MGNI, GXMNFE, W1MNFE, W2MNFE, GXMNCO, W1MNCO, W2MNCO, GXMNNI, W1MNNI, W2MNNI, GR1]
  ddo

lemma k_GR2 {p : ℝ → ℝ} {v dp : ℝ} (hp : HasDerivAt p dp v) : HasDerivAt (fun v => GR2 (p v)) (VR2 * dp) v := by
  simp only [GXMGMN, W1MGMN, W2MGMN, GXMGFE, W1MGFE, W2MGFE, GXMGCO, W1MGCO, W2MGCO, GXMGNI, W1MGNI, W2MGNI, GXMNFE, W1MNFE, W2MNFE, GXFECO, W1FECO, W2FECO, GXFENI, W1FENI, W2FENI, GR2, VR2]
  refine HasDerivAt.congr_deriv (by hdo) ?_
  ring

lemma kd_GR2 (y : Var 5 4 → ℝ) : DifferentiableAt ℝ (fun y : Var 5 4 → ℝ => GR2 (y (.inl iP))) y := by
  simp only [GXMGMN, W1MGMN, W2MGMN, GXMGFE, W1MGFE, W2MGFE, GXMGCO, W1MGCO, W2MGCO, GXMGNI, W1MGNI, W2MGNI, GXMNFE, W1MNFE, W2MNFE, GXFECO, W1FECO, W2FECO, GXFENI, W1FENI, W2FENI, GR2]
  ddo

lemma k_GR3 {p : ℝ → ℝ} {v dp : ℝ} (hp : HasDerivAt p dp v) : HasDerivAt (fun v => GR3 (p v)) (VR3 * dp) v := by
  simp only [GXMGMN, W1MGMN, W2MGMN, GXMGFE, W1MGFE, W2MGFE, GXMGCO, W1MGCO, W2MGCO, GXMGNI, W1MGNI, W2MGNI, GXMNCO, W1MNCO, W2MNCO, GXFECO, W1FECO, W2FECO, GXCONI, W1CONI, W2CONI, GR3, VR3]
  refine HasDerivAt.congr_deriv (by hdo) ?_
  ring

lemma kd_GR3 (y : Var 5 4 → ℝ) : DifferentiableAt ℝ (fun y : Var 5 4 → ℝ => GR3 (y (.inl iP))) y := by
  simp only [GXMGMN, W1MGMN, W2MGMN, GXMGFE, W1MGFE, W2MGFE, GXMGCO, W1MGCO, W2MGCO, GXMGNI, W1MGNI, W2MGNI, GXMNCO, W1MNCO, W2MNCO, GXFECO, W1FECO, W2FECO, GXCONI, W1CONI, W2CONI, GR3]
  ddo

lemma k_GR4 {p : ℝ → ℝ} {v dp : ℝ} (hp : HasDerivAt p dp v) : HasDerivAt (fun v => GR4 (p v)) (VR4 * dp) v := by
  simp only [GXMGMN, W1MGMN, W2MGMN, GXMGFE, W1MGFE, W2MGFE, GXMGCO, W1MGCO, W2MGCO, GXMGNI, W1MGNI, W2MGNI, GXMNNI, W1MNNI, W2MNNI, GXFENI, W1FENI, W2FENI, GXCONI, W1CONI, W2CONI, GR4, VR4]
  refine HasDerivAt.congr_deriv (by hdo) ?_
  ring

lemma kd_GR4 (y : Var 5 4 → ℝ) : DifferentiableAt ℝ (fun y : Var 5 4 → ℝ => GR4 (y (.inl iP))) y := by
  simp only [GXMGMN, W1MGMN, W2MGMN, GXMGFE, W1MGFE, W2MGFE, GXMGCO, W1MGCO, W2MGCO, GXMGNI, W1MGNI, W2MGNI, GXMNNI, W1MNNI, W2MNNI, GXFENI, W1FENI, W2FENI, GXCONI, W1CONI, W2CONI, GR4]
  ddo

lemma k_GR5 {p : ℝ → ℝ} {v dp : ℝ} (hp : HasDerivAt p dp v) : HasDerivAt (fun v => GR5 (p v)) (VR5 * dp) v := by
  simp only [W2CAMG, GEXMGMN, GXMGMN, W2CAMN, W2MGMN, GEXMGFE, GXMGFE, W2CAFE, W2MGFE, GEXMGCO, GXMGCO, W2CACO, W2MGCO, GEXMGNI, GXMGNI, W2CANI, W2MGNI, GR5, VR5]
  refine HasDerivAt.congr_deriv (by hdo) ?_
  ring

lemma kd_GR5 (y : Var 5 4 → ℝ) : DifferentiableAt ℝ (fun y : Var 5 4 → ℝ => GR5 (y (.inl iP))) y := by
  simp only [W2CAMG, GEXMGMN, GXMGMN, W2CAMN, W2MGMN, GEXMGFE, GXMGFE, W2CAFE, W2MGFE, GEXMGCO, GXMGCO, W2CACO, W2MGCO, GEXMGNI, GXMGNI, W2CANI, W2MGNI, GR5]
  ddo

lemma k_GEXMGMN {p : ℝ → ℝ} {v dp : ℝ} (hp : HasDerivAt p dp v) : HasDerivAt (fun v => GEXMGMN (p v)) (VEXMGMN * dp) v := by
  simp only [GEXMGMN]
  refine HasDerivAt.congr_deriv (by hdo) ?_
  ring

lemma kd_GEXMGMN (y : Var 5 4 → ℝ) : DifferentiableAt ℝ (fun y : Var 5 4 → ℝ => GEXMGMN (y (.inl iP))) y := by
  simp only [GEXMGMN]
  ddo

lemma k_GEXMGFE {p : ℝ → ℝ} {v dp : ℝ} (hp : HasDerivAt p dp v) : HasDerivAt (fun v => GEXMGFE (p v)) (VEXMGFE * dp) v := by
  simp only [GEXMGFE]
  refine HasDerivAt.congr_deriv (by hdo) ?_
  ring

lemma kd_GEXMGFE (y : Var 5 4 → ℝ) : DifferentiableAt ℝ (fun y : Var 5 4 → ℝ => GEXMGFE (y (.inl iP))) y := by
  simp only [GEXMGFE]
  ddo

lemma k_GEXMGCO {p : ℝ → ℝ} {v dp : ℝ} (hp : HasDerivAt p dp v) : HasDerivAt (fun v => GEXMGCO (p v)) (VEXMGCO * dp) v := by
  simp only [GEXMGCO]
  refine HasDerivAt.congr_deriv (by hdo) ?_
  ring

lemma kd_GEXMGCO (y : Var 5 4 → ℝ) : DifferentiableAt ℝ (fun y : Var 5 4 → ℝ => GEXMGCO (y (.inl iP))) y := by
  simp only [GEXMGCO]
  ddo

lemma k_GEXMGNI {p : ℝ → ℝ} {v dp : ℝ} (hp : HasDerivAt p dp v) : HasDerivAt (fun v => GEXMGNI (p v)) (VEXMGNI * dp) v := by
  simp only [GEXMGNI]
  refine HasDerivAt.congr_deriv (by hdo) ?_
  ring

lemma kd_GEXMGNI (y : Var 5 4 → ℝ) : DifferentiableAt ℝ (fun y : Var 5 4 → ℝ => GEXMGNI (y (.inl iP))) y := by
  simp only [GEXMGNI]
  ddo

lemma k_GS1 {p : ℝ → ℝ} {v dp : ℝ} (hp : HasDerivAt p dp v) : HasDerivAt (fun v => GS1 (p v)) (VS1 * dp) v := by
  simp only [GEXMGMN, W1MGMN, W2MGMN, GEXMGFE, W1MGFE, W2MGFE, GEXMGCO, W1MGCO, W2MGCO, GEXMGNI, W1MGNI, W2MGNI, GEXMNFE, W1MNFE, W2MNFE, GEXMNCO, W1MNCO, W2MNCO, GEXMNNI, W1MNNI, W2MNNI, GS1, VS1]
  refine HasDerivAt.congr_deriv (by hdo) ?_
  ring

lemma kd_GS1 (y : Var 5 4 → ℝ) : DifferentiableAt ℝ (fun y : Var 5 4 → ℝ => GS1 (y (.inl iP))) y := by
  simp only [GEXMGMN, W1MGMN, W2MGMN, GEXMGFE, W1MGFE, W2MGFE, GEXMGCO, W1MGCO, W2MGCO, GEXMGNI, W1MGNI, W2MGNI, GEXMNFE, W1MNFE, W2MNFE, GEXMNCO, W1MNCO, W2MNCO, GEXMNNI, W1MNNI, W2MNNI, GS1]
  ddo

lemma k_GEXMNFE {p : ℝ → ℝ} {v dp : ℝ} (hp : HasDerivAt p dp v) : HasDerivAt (fun v => GEXMNFE (p v)) (VEXMNFE * dp) v := by
  simp only [GEXMNFE]
  refine HasDerivAt.congr_deriv (by hdo) ?_
  ring

lemma kd_GEXMNFE (y : Var 5 4 → ℝ) : DifferentiableAt ℝ (fun y : Var 5 4 → ℝ => GEXMNFE (y (.inl iP))) y := by
  simp only [GEXMNFE]
  ddo

lemma k_GEXMNCO {p : ℝ → ℝ} {v dp : ℝ} (hp : HasDerivAt p dp v) : HasDerivAt (fun v => GEXMNCO (p v)) (VEXMNCO * dp) v := by
  simp only [GEXMNCO]
  refine HasDerivAt.congr_deriv (by hdo) ?_
  ring

lemma kd_GEXMNCO (y : Var 5 4 → ℝ) : DifferentiableAt ℝ (fun y : Var 5 4 → ℝ => GEXMNCO (y (.inl iP))) y := by
  simp only [GEXMNCO]
  ddo

lemma k_GEXMNNI {p : ℝ → ℝ} {v dp : ℝ} (hp : HasDerivAt p dp v) : HasDerivAt (fun v => GEXMNNI (p v)) (VEXMNNI * dp) v := by
  simp only [GEXMNNI]
  refine HasDerivAt.congr_deriv (by hdo) ?_
  ring

lemma kd_GEXMNNI (y : Var 5 4 → ℝ) : DifferentiableAt ℝ (fun y : Var 5 4 → ℝ => GEXMNNI (y (.inl iP))) y := by
  simp only [GEXMNNI]
  ddo

lemma k_GS2 {p : ℝ → ℝ} {v dp : ℝ} (hp : HasDerivAt p dp v) : HasDerivAt (fun v => GS2 (p v)) (VS2 * dp) v := by
  simp only [GEXMGMN, W1MGMN, W2MGMN, GEXMGFE, W1MGFE, W2MGFE, GEXMGCO, W1MGCO, W2MGCO, GEXMGNI, W1MGNI, W2MGNI, GEXMNFE, W1MNFE, W2MNFE, GEXFECO, W1FECO, W2FECO, GEXFENI, W1FENI, W2FENI, GS2, VS2]
  refine HasDerivAt.congr_deriv (by hdo) ?_
  ring

lemma kd_GS2 (y : Var 5 4 → ℝ) : DifferentiableAt ℝ (fun y : Var 5 4 → ℝ => GS2 (y (.inl iP))) y := by
  simp only [GEXMGMN, W1MGMN, W2MGMN, GEXMGFE, W1MGFE, W2MGFE, GEXMGCO, W1MGCO, W2MGCO, GEXMGNI, W1MGNI, W2MGNI, GEXMNFE, W1MNFE, W2MNFE, GEXFECO, W1FECO, W2FECO, GEXFENI, W1FENI, W2FENI, GS2]
  ddo

lemma k_GEXFECO {p : ℝ → ℝ} {v dp : ℝ} (hp : HasDerivAt p dp v) : HasDerivAt (fun v => GEXFECO (p v)) (VEXFECO * dp) v := by
  simp only [GEXFECO]
  refine HasDerivAt.congr_deriv (by hdo) ?_
  ring

lemma kd_GEXFECO (y : Var 5 4 → ℝ) : DifferentiableAt ℝ (fun y : Var 5 4 → ℝ => GEXFECO (y (.inl iP))) y := by
  simp only [GEXFECO]
  ddo

lemma k_GEXFENI {p : ℝ → ℝ} {v dp : ℝ} (hp : HasDerivAt p dp v) : HasDerivAt (fun v => GEXFENI (p v)) (VEXFENI * dp) v := by
  simp only [GEXFENI]
  refine HasDerivAt.congr_deriv (by hdo) ?_
  ring

lemma kd_GEXFENI (y : Var 5 4 → ℝ) : DifferentiableAt ℝ (fun y : Var 5 4 → ℝ => GEXFENI (y (.inl iP))) y := by
  simp only [GEXFENI]
  ddo

lemma k_GS3 {p : ℝ → ℝ} {v dp : ℝ} (hp : HasDerivAt p dp v) : HasDerivAt (fun v => GS3 (p v)) (VS3 * dp) v := by
  simp only [GEXMGMN, W1MGMN, W2MGMN, GEXMGFE, W1MGFE, W2MGFE, GEXMGCO, W1MGCO, W2MGCO, GEXMGNI, W1MGNI, W2MGNI, GEXMNCO, W1MNCO, W2MNCO, GEXFECO, W1FECO, W2FECO, GEXCONI, W1CONI, W2CONI, GS3, VS3]
  refine HasDerivAt.congr_deriv (by hdo) ?_
  ring

lemma kd_GS3 (y : Var 5 4 → ℝ) : DifferentiableAt ℝ (fun y : Var 5 4 → ℝ => GS3 (y (.inl iP))) y := by
  simp only [GEXMGMN, W1MGMN, W2MGMN, GEXMGFE, W1MGFE, W2MGFE, GEXMGCO, W1MGCO, W2MGCO, GEXMGNI, W1MGNI, W2MGNI, GEXMNCO, W1MNCO, W2MNCO, GEXFECO, W1FECO, W2FECO, GEXCONI, W1CONI, W2CONI, GS3]
  ddo

lemma k_GEXCONI {p : ℝ → ℝ} {v dp : ℝ} (hp : HasDerivAt p dp v) : HasDerivAt (fun v => GEXCONI (p v)) (VEXCONI * dp) v := by
  simp only [GEXCONI]
  refine HasDerivAt.congr_deriv (by hdo) ?_
  ring

lemma kd_GEXCONI (y : Var 5 4 → ℝ) : DifferentiableAt ℝ (fun y : Var 5 4 → ℝ => GEXCONI (y (.inl iP))) y := by
  simp only [GEXCONI]
  ddo

lemma k_GS4 {p : ℝ → ℝ} {v dp : ℝ} (hp : HasDerivAt p dp v) : HasDerivAt (fun v => GS4 (p v)) (VS4 * dp) v := by
  simp only [GEXMGMN, W1MGMN, W2MGMN, GEXMGFE, W1MGFE, W2MGFE, GEXMGCO, W1MGCO, W2MGCO, GEXMGNI, W1MGNI, W2MGNI, GEXMNNI, W1MNNI, W2MNNI, GEXFENI, W1FENI, W2FENI, GEXCONI, W1CONI, W2CONI, GS4, VS4]
  refine HasDerivAt.congr_deriv (by hdo) ?_
  ring

lemma kd_GS4 (y : Var 5 4 → ℝ) : DifferentiableAt ℝ (fun y : Var 5 4 → ℝ => GS4 (y (.inl iP))) y := by
  simp only [GEXMGMN, W1MGMN, W2MGMN, GEXMGFE, W1MGFE, W2MGFE, GEXMGCO, W1MGCO, W2MGCO, GEXMGNI, W1MGNI, W2MGNI, GEXMNNI, W1MNNI, W2MNNI, GEXFENI, W1FENI, W2FENI, GEXCONI, W1CONI, W2CONI, GS4]
  ddo

lemma k_GR1R1 {p : ℝ → ℝ} {v dp : ℝ} (hp : HasDerivAt p dp v) : HasDerivAt (fun v => GR1R1 (p v)) (VR1R1 * dp) v := by
  simp only [GXMGMN, W1MGMN, W2MGMN, GR1R1, VR1R1]
  refine HasDerivAt.congr_deriv (by hdo) ?_
  ring

lemma kd_GR1R1 (y : Var 5 4 → ℝ) : DifferentiableAt ℝ (fun y : Var 5 4 → ℝ => GR1R1 (y (.inl iP))) y := by
  simp only [GXMGMN, W1MGMN, W2MGMN, GR1R1]
  ddo

lemma k_GR1R2 {p : ℝ → ℝ} {v dp : ℝ} (hp : HasDerivAt p dp v) : HasDerivAt (fun v => GR1R2 (p v)) (VR1R2 * dp) v := by
  simp only [GXMNFE, W1MNFE, W2MNFE, GXMGMN, W1MGMN, W2MGMN, GXMGFE, W1MGFE, W2MGFE, GR1R2, VR1R2]
  refine HasDerivAt.congr_deriv (by hdo) ?_
  ring

lemma kd_GR1R2 (y : Var 5 4 → ℝ) : DifferentiableAt ℝ (fun y : Var 5 4 → ℝ => GR1R2 (y (.inl iP))) y := by
  simp only [GXMNFE, W1MNFE, W2MNFE, GXMGMN, W1MGMN, W2MGMN, GXMGFE, W1MGFE, W2MGFE, GR1R2]
  ddo

lemma k_GR1R3 {p : ℝ → ℝ} {v dp : ℝ} (hp : HasDerivAt p dp v) : HasDerivAt (fun v => GR1R3 (p v)) (VR1R3 * dp) v := by
  simp only [GXMNCO, W1MNCO, W2MNCO, GXMGMN, W1MGMN, W2MGMN, GXMGCO, W1MGCO, W2MGCO, GR1R3, VR1R3]
  refine HasDerivAt.congr_deriv (by hdo) ?_
  ring

lemma kd_GR1R3 (y : Var 5 4 → ℝ) : DifferentiableAt ℝ (fun y : Var 5 4 → ℝ => GR1R3 (y (.inl iP))) y := by
  simp only [GXMNCO, W1MNCO, W2MNCO, GXMGMN, W1MGMN, W2MGMN, GXMGCO, W1MGCO, W2MGCO, GR1R3]
  ddo

lemma k_GR1R4 {p : ℝ → ℝ} {v dp : ℝ} (hp : HasDerivAt p dp v) : HasDerivAt (fun v => GR1R4 (p v)) (VR1R4 * dp) v := by
  simp only [GXMNNI, W1MNNI, W2MNNI, GXMGMN, W1MGMN, W2MGMN, GXMGNI, W1MGNI, W2MGNI, GR1R4, VR1R4]
  refine HasDerivAt.congr_deriv (by hdo) ?_
  ring

lemma kd_GR1R4 (y : Var 5 4 → ℝ) : DifferentiableAt ℝ (fun y : Var 5 4 → ℝ => GR1R4 (y (.inl iP))) y := by
  simp only [GXMNNI, W1MNNI, W2MNNI, GXMGMN, W1MGMN, W2MGMN, GXMGNI, W1MGNI, W2MGNI, GR1R4]
  ddo

lemma k_GR1R5 {p : ℝ → ℝ} {v dp : ℝ} (hp : HasDerivAt p dp v) : HasDerivAt (fun v => GR1R5 (p v)) (VR1R5 * dp) v := by
  simp only [GEXMGMN, GXMGMN, W2CAMG, W2CAMN, W2MGMN, GR1R5, VR1R5]
  refine HasDerivAt.congr_deriv (by hdo) ?_
  ring

lemma kd_GR1R5 (y : Var 5 4 → ℝ) : DifferentiableAt ℝ (fun y : Var 5 4 → ℝ => GR1R5 (y (.inl iP))) y := by
  simp only [GEXMGMN, GXMGMN, W2CAMG, W2CAMN, W2MGMN, GR1R5]
  ddo

lemma k_GR1S1 {p : ℝ → ℝ} {v dp : ℝ} (hp : HasDerivAt p dp v) : HasDerivAt (fun v => GR1S1 (p v)) (VR1S1 * dp) v := by
  simp only [W1MGMN, W2MGMN, GR1S1, VR1S1]
  refine HasDerivAt.congr_deriv (by hdo) ?_
  ring

lemma kd_GR1S1 (y : Var 5 4 → ℝ) : DifferentiableAt ℝ (fun y : Var 5 4 → ℝ => GR1S1 (y (.inl iP))) y := by
  simp only [W1MGMN, W2MGMN, GR1S1]
  ddo

lemma k_GR1S2 {p : ℝ → ℝ} {v dp : ℝ} (hp : HasDerivAt p dp v) : HasDerivAt (fun v => GR1S2 (p v)) (VR1S2 * dp) v := by
  simp only [GEXMGMN, W1MGMN, W2MGMN, GEXMGFE, W1MGFE, W2MGFE, GEXMNFE, W1MNFE, W2MNFE, GR1S2, VR1S2]
  refine HasDerivAt.congr_deriv (by hdo) ?_
  ring

lemma kd_GR1S2 (y : Var 5 4 → ℝ) : DifferentiableAt ℝ (fun y : Var 5 4 → ℝ => GR1S2 (y (.inl iP))) y := by
  simp only [GEXMGMN, W1MGMN, W2MGMN, GEXMGFE, W1MGFE, W2MGFE, GEXMNFE, W1MNFE, W2MNFE, GR1S2]
  ddo

lemma k_GR1S3 {p : ℝ → ℝ} {v dp : ℝ} (hp : HasDerivAt p dp v) : HasDerivAt (fun v => GR1S3 (p v)) (VR1S3 * dp) v := by
  simp only [GEXMGMN, W1MGMN, W2MGMN, GEXMGCO, W1MGCO, W2MGCO, GEXMNCO, W1MNCO, W2MNCO, GR1S3, VR1S3]
  refine HasDerivAt.congr_deriv (by hdo) ?_
  ring

lemma kd_GR1S3 (y : Var 5 4 → ℝ) : DifferentiableAt ℝ (fun y : Var 5 4 → ℝ => GR1S3 (y (.inl iP))) y := by
  simp only [GEXMGMN, W1MGMN, W2MGMN, GEXMGCO, W1MGCO, W2MGCO, GEXMNCO, W1MNCO, W2MNCO, GR1S3]
  ddo

lemma k_GR1S4 {p : ℝ → ℝ} {v dp : ℝ} (hp : HasDerivAt p dp v) : HasDerivAt (fun v => GR1S4 (p v)) (VR1S4 * dp) v := by
  simp only [GEXMGMN, W1MGMN, W2MGMN, GEXMGNI, W1MGNI, W2MGNI, GEXMNNI, W1MNNI, W2MNNI, GR1S4, VR1S4]
  refine HasDerivAt.congr_deriv (by hdo) ?_
  ring

lemma kd_GR1S4 (y : Var 5 4 → ℝ) : DifferentiableAt ℝ (fun y : Var 5 4 → ℝ => GR1S4 (y (.inl iP))) y := by
  simp only [GEXMGMN, W1MGMN, W2MGMN, GEXMGNI, W1MGNI, W2MGNI, GEXMNNI, W1MNNI, W2MNNI, GR1S4]
  ddo

lemma k_GR2R2 {p : ℝ → ℝ} {v dp : ℝ} (hp : HasDerivAt p dp v) : HasDerivAt (fun v => GR2R2 (p v)) (VR2R2 * dp) v := by
  simp only [GXMGFE, W1MGFE, W2MGFE, GR2R2, VR2R2]
  refine HasDerivAt.congr_deriv (by hdo) ?_
  ring

lemma kd_GR2R2 (y : Var 5 4 → ℝ) : DifferentiableAt ℝ (fun y : Var 5 4 → ℝ => GR2R2 (y (.inl iP))) y := by
  simp only [GXMGFE, W1MGFE, W2MGFE, GR2R2]
  ddo

lemma k_GR2R3 {p : ℝ → ℝ} {v dp : ℝ} (hp : HasDerivAt p dp v) : HasDerivAt (fun v => GR2R3 (p v)) (VR2R3 * dp) v := by
  simp only [GXFECO, W1FECO, W2FECO, GXMGFE, W1MGFE, W2MGFE, GXMGCO, W1MGCO, W2MGCO, GR2R3, VR2R3]
  refine HasDerivAt.congr_deriv (by hdo) ?_
  ring

lemma kd_GR2R3 (y : Var 5 4 → ℝ) : DifferentiableAt ℝ (fun y : Var 5 4 → ℝ => GR2R3 (y (.inl iP))) y := by
  simp only [GXFECO, W1FECO, W2FECO, GXMGFE, W1MGFE, W2MGFE, GXMGCO, W1MGCO, W2MGCO, GR2R3]
  ddo

lemma k_GR2R4 {p : ℝ → ℝ} {v dp : ℝ} (hp : HasDerivAt p dp v) : HasDerivAt (fun v => GR2R4 (p v)) (VR2R4 * dp) v := by
  simp only [GXFENI, W1FENI, W2FENI, GXMGFE, W1MGFE, W2MGFE, GXMGNI, W1MGNI, W2MGNI, GR2R4, VR2R4]
  refine HasDerivAt.congr_deriv (by hdo) ?_
  ring

lemma kd_GR2R4 (y : Var 5 4 → ℝ) : DifferentiableAt ℝ (fun y : Var 5 4 → ℝ => GR2R4 (y (.inl iP))) y := by
  simp only [GXFENI, W1FENI, W2FENI, GXMGFE, W1MGFE, W2MGFE, GXMGNI, W1MGNI, W2MGNI, GR2R4]
  ddo

lemma k_GR2R5 {p : ℝ → ℝ} {v dp : ℝ} (hp : HasDerivAt p dp v) : HasDerivAt (fun v => GR2R5 (p v)) (VR2R5 * dp) v := by
  simp only [GEXMGFE, GXMGFE, W2CAMG, W2CAFE, W2MGFE, GR2R5, VR2R5]
  refine HasDerivAt.congr_deriv (by hdo) ?_
  ring

lemma kd_GR2R5 (y : Var 5 4 → ℝ) : DifferentiableAt ℝ (fun y : Var 5 4 → ℝ => GR2R5 (y (.inl iP))) y := by
  simp only [GEXMGFE, GXMGFE, W2CAMG, W2CAFE, W2MGFE, GR2R5]
  ddo

lemma k_GR2S1 {p : ℝ → ℝ} {v dp : ℝ} (hp : HasDerivAt p dp v) : HasDerivAt (fun v => GR2S1 (p v)) (VR2S1 * dp) v := by
  simp only [GEXMGMN, W1MGMN, W2MGMN, GEXMGFE, W1MGFE, W2MGFE, GEXMNFE, W1MNFE, W2MNFE, GR2S1, VR2S1]
  refine HasDerivAt.congr_deriv (by hdo) ?_
  ring

lemma kd_GR2S1 (y : Var 5 4 → ℝ) : DifferentiableAt ℝ (fun y : Var 5 4 → ℝ => GR2S1 (y (.inl iP))) y := by
  simp only [GEXMGMN, W1MGMN, W2MGMN, GEXMGFE, W1MGFE, W2MGFE, GEXMNFE, W1MNFE, W2MNFE, GR2S1]
  ddo

lemma k_GR2S2 {p : ℝ → ℝ} {v dp : ℝ} (hp : HasDerivAt p dp v) : HasDerivAt (fun v => GR2S2 (p v)) (VR2S2 * dp) v := by
  simp only [W1MGFE, W2MGFE, GR2S2, VR2S2]
  refine HasDerivAt.congr_deriv (by hdo) ?_
  ring

lemma kd_GR2S2 (y : Var 5 4 → ℝ) : DifferentiableAt ℝ (fun y : Var 5 4 → ℝ => GR2S2 (y (.inl iP))) y := by
  simp only [W1MGFE, W2MGFE, GR2S2]
  ddo

lemma k_GR2S3 {p : ℝ → ℝ} {v dp : ℝ} (hp : HasDerivAt p dp v) : HasDerivAt (fun v => GR2S3 (p v)) (VR2S3 * dp) v := by
  simp only [GEXMGFE, W1MGFE, W2MGFE, GEXMGCO, W1MGCO, W2MGCO, GEXFECO, W1FECO, W2FECO, GR2S3, VR2S3]
  refine HasDerivAt.congr_deriv (by hdo) ?_
  ring

lemma kd_GR2S3 (y : Var 5 4 → ℝ) : DifferentiableAt ℝ (fun y : Var 5 4 → ℝ => GR2S3 (y (.inl iP))) y := by
  simp only [GEXMGFE, W1MGFE, W2MGFE, GEXMGCO, W1MGCO, W2MGCO, GEXFECO, W1FECO, W2FECO, GR2S3]
  ddo

lemma k_GR2S4 {p : ℝ → ℝ} {v dp : ℝ} (hp : HasDerivAt p dp v) : HasDerivAt (fun v => GR2S4 (p v)) (VR2S4 * dp) v := by
  simp only [GEXMGFE, W1MGFE, W2MGFE, GEXMGNI, W1MGNI, W2MGNI, GEXFENI, W1FENI, W2FENI, GR2S4, VR2S4]
  refine HasDerivAt.congr_deriv (by hdo) ?_
  ring

lemma kd_GR2S4 (y : Var 5 4 → ℝ) : DifferentiableAt ℝ (fun y : Var 5 4 → ℝ => GR2S4 (y (.inl iP))) y := by
  simp only [GEXMGFE, W1MGFE, W2MGFE, GEXMGNI, W1MGNI, W2MGNI, GEXFENI, W1FENI, W2FENI, GR2S4]
  ddo

lemma k_GR3R3 {p : ℝ → ℝ} {v dp : ℝ} (hp : HasDerivAt p dp v) : HasDerivAt (fun v => GR3R3 (p v)) (VR3R3 * dp) v := by
  simp only [GXMGCO, W1MGCO, W2MGCO, GR3R3, VR3R3]
  refine HasDerivAt.congr_deriv (by hdo) ?_
  ring

lemma kd_GR3R3 (y : Var 5 4 → ℝ) : DifferentiableAt ℝ (fun y : Var 5 4 → ℝ => GR3R3 (y (.inl iP))) y := by
  simp only [GXMGCO, W1MGCO, W2MGCO, GR3R3]
  ddo

lemma k_GR3R4 {p : ℝ → ℝ} {v dp : ℝ} (hp : HasDerivAt p dp v) : HasDerivAt (fun v => GR3R4 (p v)) (VR3R4 * dp) v := by
  simp only [GXCONI, W1CONI, W2CONI, GXMGCO, W1MGCO, W2MGCO, GXMGNI, W1MGNI, W2MGNI, GR3R4, VR3R4]
  refine HasDerivAt.congr_deriv (by hdo) ?_
  ring

lemma kd_GR3R4 (y : Var 5 4 → ℝ) : DifferentiableAt ℝ (fun y : Var 5 4 → ℝ => GR3R4 (y (.inl iP))) y := by
  simp only [GXCONI, W1CONI, W2CONI, GXMGCO, W1MGCO, W2MGCO, GXMGNI, W1MGNI, W2MGNI, GR3R4]
  ddo

lemma k_GR3R5 {p : ℝ → ℝ} {v dp : ℝ} (hp : HasDerivAt p dp v) : HasDerivAt (fun v => GR3R5 (p v)) (VR3R5 * dp) v := by
  simp only [GEXMGCO, GXMGCO, W2CAMG, W2CACO, W2MGCO, GR3R5, VR3R5]
  refine HasDerivAt.congr_deriv (by hdo) ?_
  ring

lemma kd_GR3R5 (y : Var 5 4 → ℝ) : DifferentiableAt ℝ (fun y : Var 5 4 → ℝ => GR3R5 (y (.inl iP))) y := by
  simp only [GEXMGCO, GXMGCO, W2CAMG, W2CACO, W2MGCO, GR3R5]
  ddo

lemma k_GR3S1 {p : ℝ → ℝ} {v dp : ℝ} (hp : HasDerivAt p dp v) : HasDerivAt (fun v => GR3S1 (p v)) (VR3S1 * dp) v := by
  simp only [GEXMGMN, W1MGMN, W2MGMN, GEXMGCO, W1MGCO, W2MGCO, GEXMNCO, W1MNCO, W2MNCO, GR3S1, VR3S1]
  refine HasDerivAt.congr_deriv (by hdo) ?_
  ring

lemma kd_GR3S1 (y : Var 5 4 → ℝ) : DifferentiableAt ℝ (fun y : Var 5 4 → ℝ => GR3S1 (y (.inl iP))) y := by
  simp only [GEXMGMN, W1MGMN, W2MGMN, GEXMGCO, W1MGCO, W2MGCO, GEXMNCO, W1MNCO, W2MNCO, GR3S1]
  ddo

lemma k_GR3S2 {p : ℝ → ℝ} {v dp : ℝ} (hp : HasDerivAt p dp v) : HasDerivAt (fun v => GR3S2 (p v)) (VR3S2 * dp) v := by
  simp only [GEXMGFE, W1MGFE, W2MGFE, GEXMGCO, W1MGCO, W2MGCO, GEXFECO, W1FECO, W2FECO, GR3S2, VR3S2]
  refine HasDerivAt.congr_deriv (by hdo) ?_
  ring

lemma kd_GR3S2 (y : Var 5 4 → ℝ) : DifferentiableAt ℝ (fun y : Var 5 4 → ℝ => GR3S2 (y (.inl iP))) y := by
  simp only [GEXMGFE, W1MGFE, W2MGFE, GEXMGCO, W1MGCO, W2MGCO, GEXFECO, W1FECO, W2FECO, GR3S2]
  ddo

lemma k_GR3S3 {p : ℝ → ℝ} {v dp : ℝ} (hp : HasDerivAt p dp v) : HasDerivAt (fun v => GR3S3 (p v)) (VR3S3 * dp) v := by
  simp only [W1MGCO, W2MGCO, GR3S3, VR3S3]
  refine HasDerivAt.congr_deriv (by hdo) ?_
  ring

lemma kd_GR3S3 (y : Var 5 4 → ℝ) : DifferentiableAt ℝ (fun y : Var 5 4 → ℝ => GR3S3 (y (.inl iP))) y := by
  simp only [W1MGCO, W2MGCO, GR3S3]
  ddo

lemma k_GR3S4 {p : ℝ → ℝ} {v dp : ℝ} (hp : HasDerivAt p dp v) : HasDerivAt (fun v => GR3S4 (p v)) (VR3S4 * dp) v := by
  simp only [GEXMGCO, W1MGCO, W2MGCO, GEXMGNI, W1MGNI, W2MGNI, GEXCONI, W1CONI, W2CONI, GR3S4, VR3S4]
  refine HasDerivAt.congr_deriv (by hdo) ?_
  ring

lemma kd_GR3S4 (y : Var 5 4 → ℝ) : DifferentiableAt ℝ (fun y : Var 5 4 → ℝ => GR3S4 (y (.inl iP))) y := by
  simp only [GEXMGCO, W1MGCO, W2MGCO, GEXMGNI, W1MGNI, W2MGNI, GEXCONI, W1CONI, W2CONI, GR3S4]
  ddo

lemma k_GR4R4 {p : ℝ → ℝ} {v dp : ℝ} (hp : HasDerivAt p dp v) : HasDerivAt (fun v => GR4R4 (p v)) (VR4R4 * dp) v := by
  simp only [GXMGNI, W1MGNI, W2MGNI, GR4R4, VR4R4]
  refine HasDerivAt.congr_deriv (by hdo) ?_
  ring

lemma kd_GR4R4 (y : Var 5 4 → ℝ) : DifferentiableAt ℝ (fun y : Var 5 4 → ℝ => GR4R4 (y (.inl iP))) y := by
  simp only [GXMGNI, W1MGNI, W2MGNI, GR4R4]
  ddo

lemma k_GR4R5 {p : ℝ → ℝ} {v dp : ℝ} (hp : HasDerivAt p dp v) : HasDerivAt (fun v => GR4R5 (p v)) (VR4R5 * dp) v := by
  simp only [GEXMGNI, GXMGNI, W2CAMG, W2CANI, W2MGNI, GR4R5, VR4R5]
  refine HasDerivAt.congr_deriv (by hdo) ?_
  ring

lemma kd_GR4R5 (y : Var 5 4 → ℝ) : DifferentiableAt ℝ (fun y : Var 5 4 → ℝ => GR4R5 (y (.inl iP))) y := by
  simp only [GEXMGNI, GXMGNI, W2CAMG, W2CANI, W2MGNI, GR4R5]
  ddo

lemma k_GR4S1 {p : ℝ → ℝ} {v dp : ℝ} (hp : HasDerivAt p dp v) : HasDerivAt (fun v => GR4S1 (p v)) (VR4S1 * dp) v := by
  simp only [GEXMGMN, W1MGMN, W2MGMN, GEXMGNI, W1MGNI, W2MGNI, GEXMNNI, W1MNNI, W2MNNI, GR4S1, VR4S1]
  refine HasDerivAt.congr_deriv (by hdo) ?_
  ring

lemma kd_GR4S1 (y : Var 5 4 → ℝ) : DifferentiableAt ℝ (fun y : Var 5 4 → ℝ => GR4S1 (y (.inl iP))) y := by
  simp only [GEXMGMN, W1MGMN, W2MGMN, GEXMGNI, W1MGNI, W2MGNI, GEXMNNI, W1MNNI, W2MNNI, GR4S1]
  ddo

lemma k_GR4S2 {p : ℝ → ℝ} {v dp : ℝ} (hp : HasDerivAt p dp v) : HasDerivAt (fun v => GR4S2 (p v)) (VR4S2 * dp) v := by
  simp only [GEXMGFE, W1MGFE, W2MGFE, GEXMGNI, W1MGNI, W2MGNI, GEXFENI, W1FENI, W2FENI, GR4S2, VR4S2]
  refine HasDerivAt.congr_deriv (by hdo) ?_
  ring

lemma kd_GR4S2 (y : Var 5 4 → ℝ) : DifferentiableAt ℝ (fun y : Var 5 4 → ℝ => GR4S2 (y (.inl iP))) y := by
  simp only [GEXMGFE, W1MGFE, W2MGFE, GEXMGNI, W1MGNI, W2MGNI, GEXFENI, W1FENI, W2FENI, GR4S2]
  ddo

lemma k_GR4S3 {p : ℝ → ℝ} {v dp : ℝ} (hp : HasDerivAt p dp v) : HasDerivAt (fun v => GR4S3 (p v)) (VR4S3 * dp) v := by
  simp only [GEXMGCO, W1MGCO, W2MGCO, GEXMGNI, W1MGNI, W2MGNI, GEXCONI, W1CONI, W2CONI, GR4S3, VR4S3]
  refine HasDerivAt.congr_deriv (by hdo) ?_
  ring

lemma kd_GR4S3 (y : Var 5 4 → ℝ) : DifferentiableAt ℝ (fun y : Var 5 4 → ℝ => GR4S3 (y (.inl iP))) y := by
  simp only [GEXMGCO, W1MGCO, W2MGCO, GEXMGNI, W1MGNI, W2MGNI, GEXCONI, W1CONI, W2CONI, GR4S3]
  ddo

lemma k_GR4S4 {p : ℝ → ℝ} {v dp : ℝ} (hp : HasDerivAt p dp v) : HasDerivAt (fun v => GR4S4 (p v)) (VR4S4 * dp) v := by
  simp only [W1MGNI, W2MGNI, GR4S4, VR4S4]
  refine HasDerivAt.congr_deriv (by hdo) ?_
  ring

lemma kd_GR4S4 (y : Var 5 4 → ℝ) : DifferentiableAt ℝ (fun y : Var 5 4 → ℝ => GR4S4 (y (.inl iP))) y := by
  simp only [W1MGNI, W2MGNI, GR4S4]
  ddo

lemma k_GR5R5 {p : ℝ → ℝ} {v dp : ℝ} (hp : HasDerivAt p dp v) : HasDerivAt (fun v => GR5R5 (p v)) (VR5R5 * dp) v := by
  simp only [W2CAMG, GR5R5, VR5R5]
  refine HasDerivAt.congr_deriv (by hdo) ?_
  ring

lemma kd_GR5R5 (y : Var 5 4 → ℝ) : DifferentiableAt ℝ (fun y : Var 5 4 → ℝ => GR5R5 (y (.inl iP))) y := by
  simp only [W2CAMG, GR5R5]
  ddo

lemma k_GR5S1 {p : ℝ → ℝ} {v dp : ℝ} (hp : HasDerivAt p dp v) : HasDerivAt (fun v => GR5S1 (p v)) (VR5S1 * dp) v := by
  simp only [GEXMGMN, GXMGMN, W2CAMG, W2CAMN, W2MGMN, GR5S1, VR5S1]
  refine HasDerivAt.congr_deriv (by hdo) ?_
  ring

lemma kd_GR5S1 (y : Var 5 4 → ℝ) : DifferentiableAt ℝ (fun y : Var 5 4 → ℝ => GR5S1 (y (.inl iP))) y := by
  simp only [GEXMGMN, GXMGMN, W2CAMG, W2CAMN, W2MGMN, GR5S1]
  ddo

lemma k_GR5S2 {p : ℝ → ℝ} {v dp : ℝ} (hp : HasDerivAt p dp v) : HasDerivAt (fun v => GR5S2 (p v)) (VR5S2 * dp) v := by
  simp only [GEXMGFE, GXMGFE, W2CAMG, W2CAFE, W2MGFE, GR5S2, VR5S2]
  refine HasDerivAt.congr_deriv (by hdo) ?_
  ring

lemma kd_GR5S2 (y : Var 5 4 → ℝ) : DifferentiableAt ℝ (fun y : Var 5 4 → ℝ => GR5S2 (y (.inl iP))) y := by
  simp only [GEXMGFE, GXMGFE, W2CAMG, W2CAFE, W2MGFE, GR5S2]
  ddo

lemma k_GR5S3 {p : ℝ → ℝ} {v dp : ℝ} (hp : HasDerivAt p dp v) : HasDerivAt (fun v => GR5S3 (p v)) (VR5S3 * dp) v := by
  simp only [GEXMGCO, GXMGCO, W2CAMG, W2CACO, W2MGCO, GR5S3, VR5S3]
  refine HasDerivAt.congr_deriv (by hdo) ?_
  ring

lemma kd_GR5S3 (y : Var 5 4 → ℝ) : DifferentiableAt ℝ (fun y : Var 5 4 → ℝ => GR5S3 (y (.inl iP))) y := by
  simp only [GEXMGCO, GXMGCO, W2CAMG, W2CACO, W2MGCO, GR5S3]
  ddo

lemma k_GR5S4 {p : ℝ → ℝ} {v dp : ℝ} (hp : HasDerivAt p dp v) : HasDerivAt (fun v => GR5S4 (p v)) (VR5S4 * dp) v := by
  simp only [GEXMGNI, GXMGNI, W2CAMG, W2CANI, W2MGNI, GR5S4, VR5S4]
  refine HasDerivAt.congr_deriv (by hdo) ?_
  ring

lemma kd_GR5S4 (y : Var 5 4 → ℝ) : DifferentiableAt ℝ (fun y : Var 5 4 → ℝ => GR5S4 (y (.inl iP))) y := by
  simp only [GEXMGNI, GXMGNI, W2CAMG, W2CANI, W2MGNI, GR5S4]
  ddo

lemma k_GS1S1 {p : ℝ → ℝ} {v dp : ℝ} (hp : HasDerivAt p dp v) : HasDerivAt (fun v => GS1S1 (p v)) (VS1S1 * dp) v := by
  simp only [GXMGMN, W1MGMN, W2MGMN, GS1S1, VS1S1]
  refine HasDerivAt.congr_deriv (by hdo) ?_
  ring

lemma kd_GS1S1 (y : Var 5 4 → ℝ) : DifferentiableAt ℝ (fun y : Var 5 4 → ℝ => GS1S1 (y (.inl iP))) y := by
  simp only [GXMGMN, W1MGMN, W2MGMN, GS1S1]
  ddo

lemma k_GS1S2 {p : ℝ → ℝ} {v dp : ℝ} (hp : HasDerivAt p dp v) : HasDerivAt (fun v => GS1S2 (p v)) (VS1S2 * dp) v := by
  simp only [GXMGMN, W1MGMN, W2MGMN, GXMGFE, W1MGFE, W2MGFE, GXMNFE, W1MNFE, W2MNFE, GS1S2, VS1S2]
  refine HasDerivAt.congr_deriv (by hdo) ?_
  ring

lemma kd_GS1S2 (y : Var 5 4 → ℝ) : DifferentiableAt ℝ (fun y : Var 5 4 → ℝ => GS1S2 (y (.inl iP))) y := by
  simp only [GXMGMN, W1MGMN, W2MGMN, GXMGFE, W1MGFE, W2MGFE, GXMNFE, W1MNFE, W2MNFE, GS1S2]
  ddo

lemma k_GS1S3 {p : ℝ → ℝ} {v dp : ℝ} (hp : HasDerivAt p dp v) : HasDerivAt (fun v => GS1S3 (p v)) (VS1S3 * dp) v := by
  simp only [GXMGMN, W1MGMN, W2MGMN, GXMGCO, W1MGCO, W2MGCO, GXMNCO, W1MNCO, W2MNCO, GS1S3, VS1S3]
  refine HasDerivAt.congr_deriv (by hdo) ?_
  ring

lemma kd_GS1S3 (y : Var 5 4 → ℝ) : DifferentiableAt ℝ (fun y : Var 5 4 → ℝ => GS1S3 (y (.inl iP))) y := by
  simp only [GXMGMN, W1MGMN, W2MGMN, GXMGCO, W1MGCO, W2MGCO, GXMNCO, W1MNCO, W2MNCO, GS1S3]
  ddo

lemma k_GS1S4 {p : ℝ → ℝ} {v dp : ℝ} (hp : HasDerivAt p dp v) : HasDerivAt (fun v => GS1S4 (p v)) (VS1S4 * dp) v := by
  simp only [GXMGMN, W1MGMN, W2MGMN, GXMGNI, W1MGNI, W2MGNI, GXMNNI, W1MNNI, W2MNNI, GS1S4, VS1S4]
  refine HasDerivAt.congr_deriv (by hdo) ?_
  ring

lemma kd_GS1S4 (y : Var 5 4 → ℝ) : DifferentiableAt ℝ (fun y : Var 5 4 → ℝ => GS1S4 (y (.inl iP))) y := by
  simp only [GXMGMN, W1MGMN, W2MGMN, GXMGNI, W1MGNI, W2MGNI, GXMNNI, W1MNNI, W2MNNI, GS1S4]
  ddo

lemma k_GS2S2 {p : ℝ → ℝ} {v dp : ℝ} (hp : HasDerivAt p dp v) : HasDerivAt (fun v => GS2S2 (p v)) (VS2S2 * dp) v := by
  simp only [GXMGFE, W1MGFE, W2MGFE, GS2S2, VS2S2]
  refine HasDerivAt.congr_deriv (by hdo) ?_
  ring

lemma kd_GS2S2 (y : Var 5 4 → ℝ) : DifferentiableAt ℝ (fun y : Var 5 4 → ℝ => GS2S2 (y (.inl iP))) y := by
  simp only [GXMGFE, W1MGFE, W2MGFE, GS2S2]
  ddo

lemma k_GS2S3 {p : ℝ → ℝ} {v dp : ℝ} (hp : HasDerivAt p dp v) : HasDerivAt (fun v => GS2S3 (p v)) (VS2S3 * dp) v := by
  simp only [GXMGFE, W1MGFE, W2MGFE, GXMGCO, W1MGCO, W2MGCO, GXFECO, W1FECO, W2FECO, GS2S3, VS2S3]
  refine HasDerivAt.congr_deriv (by hdo) ?_
  ring

lemma kd_GS2S3 (y : Var 5 4 → ℝ) : DifferentiableAt ℝ (fun y : Var 5 4 → ℝ => GS2S3 (y (.inl iP))) y := by
  simp only [GXMGFE, W1MGFE, W2MGFE, GXMGCO, W1MGCO, W2MGCO, GXFECO, W1FECO, W2FECO, GS2S3]
  ddo

lemma k_GS2S4 {p : ℝ → ℝ} {v dp : ℝ} (hp : HasDerivAt p dp v) : HasDerivAt (fun v => GS2S4 (p v)) (VS2S4 * dp) v := by
  simp only [GXMGFE, W1MGFE, W2MGFE, GXMGNI, W1MGNI, W2MGNI, GXFENI, W1FENI, W2FENI, GS2S4, VS2S4]
  refine HasDerivAt.congr_deriv (by hdo) ?_
  ring

lemma kd_GS2S4 (y : Var 5 4 → ℝ) : DifferentiableAt ℝ (fun y : Var 5 4 → ℝ => GS2S4 (y (.inl iP))) y := by
  simp only [GXMGFE, W1MGFE, W2MGFE, GXMGNI, W1MGNI, W2MGNI, GXFENI, W1FENI, W2FENI, GS2S4]
  ddo

lemma k_GS3S3 {p : ℝ → ℝ} {v dp : ℝ} (hp : HasDerivAt p dp v) : HasDerivAt (fun v => GS3S3 (p v)) (VS3S3 * dp) v := by
  simp only [GXMGCO, W1MGCO, W2MGCO, GS3S3, VS3S3]
  refine HasDerivAt.congr_deriv (by hdo) ?_
  ring

lemma kd_GS3S3 (y : Var 5 4 → ℝ) : DifferentiableAt ℝ (fun y : Var 5 4 → ℝ => GS3S3 (y (.inl iP))) y := by
  simp only [GXMGCO, W1MGCO, W2MGCO, GS3S3]
  ddo

lemma k_GS3S4 {p : ℝ → ℝ} {v dp : ℝ} (hp : HasDerivAt p dp v) : HasDerivAt (fun v => GS3S4 (p v)) (VS3S4 * dp) v := by
  simp only [GXMGCO, W1MGCO, W2MGCO, GXMGNI, W1MGNI, W2MGNI, GXCONI, W1CONI, W2CONI, GS3S4, VS3S4]
  refine HasDerivAt.congr_deriv (by hdo) ?_
  ring

lemma kd_GS3S4 (y : Var 5 4 → ℝ) : DifferentiableAt ℝ (fun y : Var 5 4 → ℝ => GS3S4 (y (.inl iP))) y := by
  simp only [GXMGCO, W1MGCO, W2MGCO, GXMGNI, W1MGNI, W2MGNI, GXCONI, W1CONI, W2CONI, GS3S4]
  ddo

lemma k_GS4S4 {p : ℝ → ℝ} {v dp : ℝ} (hp : HasDerivAt p dp v) : HasDerivAt (fun v => GS4S4 (p v)) (VS4S4 * dp) v := by
  simp only [GXMGNI, W1MGNI, W2MGNI, GS4S4, VS4S4]
  refine HasDerivAt.congr_deriv (by hdo) ?_
  ring

lemma kd_GS4S4 (y : Var 5 4 → ℝ) : DifferentiableAt ℝ (fun y : Var 5 4 → ℝ => GS4S4 (y (.inl iP))) y := by
  simp only [GXMGNI, W1MGNI, W2MGNI, GS4S4]
  ddo

lemma hl (y u : Var 5 4 → ℝ) (i : Var 5 4) : HasDerivAt (fun v : ℝ => y i + v * u i) (u i) 0 := by
  simpa using ((hasDerivAt_id' (0 : ℝ)).mul_const (u i)).const_add (y i)

lemma raw_line0 (y u : Var 5 4 → ℝ) : HasDerivAt (fun v : ℝ => raw (fun i => y i + v * u i) 0)
    ((1 / 2) * u (.inl (.inl 0)) + (-(1) / 2) * u (.inr 0)) 0 := by
  have hr0 := hl y u ((.inl (.inl 0)))
  have hr1 := hl y u ((.inl (.inl 1)))
  have hr2 := hl y u ((.inl (.inl 2)))
  have hr3 := hl y u ((.inl (.inl 3)))
  have hr4 := hl y u ((.inl (.inl 4)))
  have hs0 := hl y u ((.inr 0))
  have hs1 := hl y u ((.inr 1))
  have hs2 := hl y u ((.inr 2))
  have hs3 := hl y u ((.inr 3))
  change HasDerivAt (fun v : ℝ => ((y (.inl (.inl 0)) + v * u (.inl (.inl 0))) - (y (.inr 0) + v * u (.inr 0)) + 1) / 2) _ 0
  refine HasDerivAt.congr_deriv (by hdo) ?_
  ring

lemma raw_line1 (y u : Var 5 4 → ℝ) : HasDerivAt (fun v : ℝ => raw (fun i => y i + v * u i) 1)
    ((1 / 2) * u (.inl (.inl 0)) + (1 / 2) * u (.inr 0)) 0 := by
  have hr0 := hl y u ((.inl (.inl 0)))
  have hr1 := hl y u ((.inl (.inl 1)))
  have hr2 := hl y u ((.inl (.inl 2)))
  have hr3 := hl y u ((.inl (.inl 3)))
  have hr4 := hl y u ((.inl (.inl 4)))
  have hs0 := hl y u ((.inr 0))
  have hs1 := hl y u ((.inr 1))
  have hs2 := hl y u ((.inr 2))
  have hs3 := hl y u ((.inr 3))
  change HasDerivAt (fun v : ℝ => ((y (.inl (.inl 0)) + v * u (.inl (.inl 0))) + (y (.inr 0) + v * u (.inr 0)) + 1) / 2) _ 0
  refine HasDerivAt.congr_deriv (by hdo) ?_
  ring

lemma raw_line2 (y u : Var 5 4 → ℝ) : HasDerivAt (fun v : ℝ => raw (fun i => y i + v * u i) 2)
    ((1 / 2) * u (.inl (.inl 1)) + (-(1) / 2) * u (.inr 1)) 0 := by
  have hr0 := hl y u ((.inl (.inl 0)))
  have hr1 := hl y u ((.inl (.inl 1)))
  have hr2 := hl y u ((.inl (.inl 2)))
  have hr3 := hl y u ((.inl (.inl 3)))
  have hr4 := hl y u ((.inl (.inl 4)))
  have hs0 := hl y u ((.inr 0))
  have hs1 := hl y u ((.inr 1))
  have hs2 := hl y u ((.inr 2))
  have hs3 := hl y u ((.inr 3))
  change HasDerivAt (fun v : ℝ => ((y (.inl (.inl 1)) + v * u (.inl (.inl 1))) - (y (.inr 1) + v * u (.inr 1)) + 1) / 2) _ 0
  refine HasDerivAt.congr_deriv (by hdo) ?_
  ring

lemma raw_line3 (y u : Var 5 4 → ℝ) : HasDerivAt (fun v : ℝ => raw (fun i => y i + v * u i) 3)
    ((1 / 2) * u (.inl (.inl 1)) + (1 / 2) * u (.inr 1)) 0 := by
  have hr0 := hl y u ((.inl (.inl 0)))
  have hr1 := hl y u ((.inl (.inl 1)))
  have hr2 := hl y u ((.inl (.inl 2)))
  have hr3 := hl y u ((.inl (.inl 3)))
  have hr4 := hl y u ((.inl (.inl 4)))
  have hs0 := hl y u ((.inr 0))
  have hs1 := hl y u ((.inr 1))
  have hs2 := hl y u ((.inr 2))
  have hs3 := hl y u ((.inr 3))
  change HasDerivAt (fun v : ℝ => ((y (.inl (.inl 1)) + v * u (.inl (.inl 1))) + (y (.inr 1) + v * u (.inr 1)) + 1) / 2) _ 0
  refine HasDerivAt.congr_deriv (by hdo) ?_
  ring

lemma raw_line4 (y u : Var 5 4 → ℝ) : HasDerivAt (fun v : ℝ => raw (fun i => y i + v * u i) 4)
    ((1 / 2) * u (.inl (.inl 2)) + (1 / 2) * u (.inr 2)) 0 := by
  have hr0 := hl y u ((.inl (.inl 0)))
  have hr1 := hl y u ((.inl (.inl 1)))
  have hr2 := hl y u ((.inl (.inl 2)))
  have hr3 := hl y u ((.inl (.inl 3)))
  have hr4 := hl y u ((.inl (.inl 4)))
  have hs0 := hl y u ((.inr 0))
  have hs1 := hl y u ((.inr 1))
  have hs2 := hl y u ((.inr 2))
  have hs3 := hl y u ((.inr 3))
  change HasDerivAt (fun v : ℝ => ((y (.inl (.inl 2)) + v * u (.inl (.inl 2))) + (y (.inr 2) + v * u (.inr 2)) + 1) / 2) _ 0
  refine HasDerivAt.congr_deriv (by hdo) ?_
  ring

lemma raw_line5 (y u : Var 5 4 → ℝ) : HasDerivAt (fun v : ℝ => raw (fun i => y i + v * u i) 5)
    ((1 / 2) * u (.inl (.inl 2)) + (-(1) / 2) * u (.inr 2)) 0 := by
  have hr0 := hl y u ((.inl (.inl 0)))
  have hr1 := hl y u ((.inl (.inl 1)))
  have hr2 := hl y u ((.inl (.inl 2)))
  have hr3 := hl y u ((.inl (.inl 3)))
  have hr4 := hl y u ((.inl (.inl 4)))
  have hs0 := hl y u ((.inr 0))
  have hs1 := hl y u ((.inr 1))
  have hs2 := hl y u ((.inr 2))
  have hs3 := hl y u ((.inr 3))
  change HasDerivAt (fun v : ℝ => ((y (.inl (.inl 2)) + v * u (.inl (.inl 2))) - (y (.inr 2) + v * u (.inr 2)) + 1) / 2) _ 0
  refine HasDerivAt.congr_deriv (by hdo) ?_
  ring

lemma raw_line6 (y u : Var 5 4 → ℝ) : HasDerivAt (fun v : ℝ => raw (fun i => y i + v * u i) 6)
    ((1 / 2) * u (.inl (.inl 3)) + (1 / 2) * u (.inr 3)) 0 := by
  have hr0 := hl y u ((.inl (.inl 0)))
  have hr1 := hl y u ((.inl (.inl 1)))
  have hr2 := hl y u ((.inl (.inl 2)))
  have hr3 := hl y u ((.inl (.inl 3)))
  have hr4 := hl y u ((.inl (.inl 4)))
  have hs0 := hl y u ((.inr 0))
  have hs1 := hl y u ((.inr 1))
  have hs2 := hl y u ((.inr 2))
  have hs3 := hl y u ((.inr 3))
  change HasDerivAt (fun v : ℝ => ((y (.inl (.inl 3)) + v * u (.inl (.inl 3))) + (y (.inr 3) + v * u (.inr 3)) + 1) / 2) _ 0
  refine HasDerivAt.congr_deriv (by hdo) ?_
  ring

lemma raw_line7 (y u : Var 5 4 → ℝ) : HasDerivAt (fun v : ℝ => raw (fun i => y i + v * u i) 7)
    ((1 / 2) * u (.inl (.inl 3)) + (-(1) / 2) * u (.inr 3)) 0 := by
  have hr0 := hl y u ((.inl (.inl 0)))
  have hr1 := hl y u ((.inl (.inl 1)))
  have hr2 := hl y u ((.inl (.inl 2)))
  have hr3 := hl y u ((.inl (.inl 3)))
  have hr4 := hl y u ((.inl (.inl 4)))
  have hs0 := hl y u ((.inr 0))
  have hs1 := hl y u ((.inr 1))
  have hs2 := hl y u ((.inr 2))
  have hs3 := hl y u ((.inr 3))
  change HasDerivAt (fun v : ℝ => ((y (.inl (.inl 3)) + v * u (.inl (.inl 3))) - (y (.inr 3) + v * u (.inr 3)) + 1) / 2) _ 0
  refine HasDerivAt.congr_deriv (by hdo) ?_
  ring

lemma raw_line8 (y u : Var 5 4 → ℝ) : HasDerivAt (fun v : ℝ => raw (fun i => y i + v * u i) 8)
    (1 * u (.inl (.inl 4))) 0 := by
  have hr0 := hl y u ((.inl (.inl 0)))
  have hr1 := hl y u ((.inl (.inl 1)))
  have hr2 := hl y u ((.inl (.inl 2)))
  have hr3 := hl y u ((.inl (.inl 3)))
  have hr4 := hl y u ((.inl (.inl 4)))
  have hs0 := hl y u ((.inr 0))
  have hs1 := hl y u ((.inr 1))
  have hs2 := hl y u ((.inr 2))
  have hs3 := hl y u ((.inr 3))
  change HasDerivAt (fun v : ℝ => (y (.inl (.inl 4)) + v * u (.inl (.inl 4)))) _ 0
  refine HasDerivAt.congr_deriv (by hdo) ?_
  ring

lemma raw_line9 (y u : Var 5 4 → ℝ) : HasDerivAt (fun v : ℝ => raw (fun i => y i + v * u i) 9)
    ((-(1) / 2) * u (.inl (.inl 0)) + (-(1) / 2) * u (.inl (.inl 1)) + (-(1) / 2) * u (.inl (.inl 2)) + (-(1) / 2) * u (.inl (.inl 3)) + (1 / 2) * u (.inr 0) + (1 / 2) * u (.inr 1) + (-(1) / 2) * u (.inr 2) + (-(1) / 2) * u (.inr 3)) 0 := by
  have hr0 := hl y u ((.inl (.inl 0)))
  have hr1 := hl y u ((.inl (.inl 1)))
  have hr2 := hl y u ((.inl (.inl 2)))
  have hr3 := hl y u ((.inl (.inl 3)))
  have hr4 := hl y u ((.inl (.inl 4)))
  have hs0 := hl y u ((.inr 0))
  have hs1 := hl y u ((.inr 1))
  have hs2 := hl y u ((.inr 2))
  have hs3 := hl y u ((.inr 3))
  change HasDerivAt (fun v : ℝ => 1 - ((y (.inl (.inl 0)) + v * u (.inl (.inl 0))) - (y (.inr 0) + v * u (.inr 0)) + 1) / 2 - ((y (.inl (.inl
    1)) + v * u (.inl (.inl 1))) - (y (.inr 1) + v * u (.inr 1)) + 1) / 2 - ((y (.inl (.inl 2)) + v * u (.inl
    (.inl 2))) + (y (.inr 2) + v * u (.inr 2)) + 1) / 2 - ((y (.inl (.inl 3)) + v * u (.inl (.inl 3))) + (y
    (.inr 3) + v * u (.inr 3)) + 1) / 2) _ 0
  refine HasDerivAt.congr_deriv (by hdo) ?_
  ring

lemma raw_line10 (y u : Var 5 4 → ℝ) : HasDerivAt (fun v : ℝ => raw (fun i => y i + v * u i) 10)
    ((-(1) / 2) * u (.inl (.inl 0)) + (-(1) / 2) * u (.inl (.inl 1)) + (-(1) / 2) * u (.inl (.inl 2)) + (-(1) / 2) * u (.inl (.inl 3)) + (-1) * u (.inl (.inl 4)) + (-(1) / 2) * u (.inr 0) + (-(1) / 2) * u (.inr 1) + (1 / 2) * u (.inr 2) + (1 / 2) * u (.inr 3)) 0 := by
  have hr0 := hl y u ((.inl (.inl 0)))
  have hr1 := hl y u ((.inl (.inl 1)))
  have hr2 := hl y u ((.inl (.inl 2)))
  have hr3 := hl y u ((.inl (.inl 3)))
  have hr4 := hl y u ((.inl (.inl 4)))
  have hs0 := hl y u ((.inr 0))
  have hs1 := hl y u ((.inr 1))
  have hs2 := hl y u ((.inr 2))
  have hs3 := hl y u ((.inr 3))
  change HasDerivAt (fun v : ℝ => 1 - ((y (.inl (.inl 0)) + v * u (.inl (.inl 0))) + (y (.inr 0) + v * u (.inr 0)) + 1) / 2 - ((y (.inl (.inl
    1)) + v * u (.inl (.inl 1))) + (y (.inr 1) + v * u (.inr 1)) + 1) / 2 - ((y (.inl (.inl 2)) + v * u (.inl
    (.inl 2))) - (y (.inr 2) + v * u (.inr 2)) + 1) / 2 - ((y (.inl (.inl 3)) + v * u (.inl (.inl 3))) - (y
    (.inr 3) + v * u (.inr 3)) + 1) / 2 - (y (.inl (.inl 4)) + v * u (.inl (.inl 4)))) _ 0
  refine HasDerivAt.congr_deriv (by hdo) ?_
  ring

lemma raw_diff (k : Fin 11) (y : Var 5 4 → ℝ) : DifferentiableAt ℝ (fun y => raw y k) y := by
  fin_cases k
  · change DifferentiableAt ℝ (fun y : Var 5 4 → ℝ => ((y (.inl (.inl 0))) - (y (.inr 0)) + 1) / 2) y; ddo
  · change DifferentiableAt ℝ (fun y : Var 5 4 → ℝ => ((y (.inl (.inl 0))) + (y (.inr 0)) + 1) / 2) y; ddo
  · change DifferentiableAt ℝ (fun y : Var 5 4 → ℝ => ((y (.inl (.inl 1))) - (y (.inr 1)) + 1) / 2) y; ddo
  · change DifferentiableAt ℝ (fun y : Var 5 4 → ℝ => ((y (.inl (.inl 1))) + (y (.inr 1)) + 1) / 2) y; ddo
  · change DifferentiableAt ℝ (fun y : Var 5 4 → ℝ => ((y (.inl (.inl 2))) + (y (.inr 2)) + 1) / 2) y; ddo
  · change DifferentiableAt ℝ (fun y : Var 5 4 → ℝ => ((y (.inl (.inl 2))) - (y (.inr 2)) + 1) / 2) y; ddo
  · change DifferentiableAt ℝ (fun y : Var 5 4 → ℝ => ((y (.inl (.inl 3))) + (y (.inr 3)) + 1) / 2) y; ddo
  · change DifferentiableAt ℝ (fun y : Var 5 4 → ℝ => ((y (.inl (.inl 3))) - (y (.inr 3)) + 1) / 2) y; ddo
  · change DifferentiableAt ℝ (fun y : Var 5 4 → ℝ => (y (.inl (.inl 4)))) y; ddo
  · change DifferentiableAt ℝ (fun y : Var 5 4 → ℝ => 1 - ((y (.inl (.inl 0))) - (y (.inr 0)) + 1) / 2 - ((y (.inl (.inl 1))) - (y (.inr 1)) + 1) / 2 - ((y (.inl (.inl 2))) + (y (.inr 2)) + 1) / 2 - ((y (.inl (.inl 3))) + (y (.inr 3)) + 1) / 2) y; ddo
  · change DifferentiableAt ℝ (fun y : Var 5 4 → ℝ => 1 - ((y (.inl (.inl 0))) + (y (.inr 0)) + 1) / 2 - ((y (.inl (.inl 1))) + (y (.inr 1)) + 1) / 2 - ((y (.inl (.inl 2))) - (y (.inr 2)) + 1) / 2 - ((y (.inl (.inl 3))) - (y (.inr 3)) + 1) / 2 - (y (.inl (.inl 4)))) y; ddo

lemma pos (y : Var 5 4 → ℝ) (hy : Dom y) :
    0 < raw y 0 ∧ 0 < raw y 1 ∧ 0 < raw y 2 ∧ 0 < raw y 3 ∧ 0 < raw y 4 ∧ 0 < raw y 5 ∧ 0 < raw y 6 ∧ 0 < raw y
    7 ∧ 0 < raw y 8 ∧ 0 < raw y 9 ∧ 0 < raw y 10 := by
  have he := dblEps_pos
  obtain ⟨h0, h1, h2, h3, h4, h5, h6, h7, h8, h9, h10⟩ := hy
  refine ⟨?_, ?_, ?_, ?_, ?_, ?_, ?_, ?_, ?_, ?_, ?_⟩ <;> first | linarith | assumption

lemma c_G {t p r0 r1 r2 r3 r4 s0 s1 s2 s3 xm1mn xm2mn xm1fe xm2fe xm1co xm2co xm1ni xm2ni xm2ca xm1mg xm2mg : ℝ → ℝ}
    {v dt dp dr0 dr1 dr2 dr3 dr4 ds0 ds1 ds2 ds3 : ℝ} (ht : HasDerivAt t dt v) (hp : HasDerivAt p dp v) (hr0 :
    HasDerivAt r0 dr0 v) (hr1 : HasDerivAt r1 dr1 v) (hr2 : HasDerivAt r2 dr2 v) (hr3 : HasDerivAt r3 dr3 v)
    (hr4 : HasDerivAt r4 dr4 v) (hs0 : HasDerivAt s0 ds0 v) (hs1 : HasDerivAt s1 ds1 v) (hs2 : HasDerivAt s2 ds2
    v) (hs3 : HasDerivAt s3 ds3 v) (hxm1mn : HasDerivAt xm1mn ((1 / 2) * dr0 + (-(1) / 2) * ds0) v) (pxm1mn : 0
    < xm1mn v) (hxm2mn : HasDerivAt xm2mn ((1 / 2) * dr0 + (1 / 2) * ds0) v) (pxm2mn : 0 < xm2mn v) (hxm1fe :
    HasDerivAt xm1fe ((1 / 2) * dr1 + (-(1) / 2) * ds1) v) (pxm1fe : 0 < xm1fe v) (hxm2fe : HasDerivAt xm2fe ((1
    / 2) * dr1 + (1 / 2) * ds1) v) (pxm2fe : 0 < xm2fe v) (hxm1co : HasDerivAt xm1co ((1 / 2) * dr2 + (1 / 2) *
    ds2) v) (pxm1co : 0 < xm1co v) (hxm2co : HasDerivAt xm2co ((1 / 2) * dr2 + (-(1) / 2) * ds2) v) (pxm2co : 0
    < xm2co v) (hxm1ni : HasDerivAt xm1ni ((1 / 2) * dr3 + (1 / 2) * ds3) v) (pxm1ni : 0 < xm1ni v) (hxm2ni :
    HasDerivAt xm2ni ((1 / 2) * dr3 + (-(1) / 2) * ds3) v) (pxm2ni : 0 < xm2ni v) (hxm2ca : HasDerivAt xm2ca (1
    * dr4) v) (pxm2ca : 0 < xm2ca v) (hxm1mg : HasDerivAt xm1mg ((-(1) / 2) * dr0 + (-(1) / 2) * dr1 + (-(1) /
    2) * dr2 + (-(1) / 2) * dr3 + (1 / 2) * ds0 + (1 / 2) * ds1 + (-(1) / 2) * ds2 + (-(1) / 2) * ds3) v)
    (pxm1mg : 0 < xm1mg v) (hxm2mg : HasDerivAt xm2mg ((-(1) / 2) * dr0 + (-(1) / 2) * dr1 + (-(1) / 2) * dr2 +
    (-(1) / 2) * dr3 + (-1) * dr4 + (-(1) / 2) * ds0 + (-(1) / 2) * ds1 + (1 / 2) * ds2 + (1 / 2) * ds3) v)
    (pxm2mg : 0 < xm2mg v) :
    HasDerivAt (fun v => G (t v) (p v) (r0 v) (r1 v) (r2 v) (r3 v) (r4 v) (s0 v) (s1 v) (s2 v) (s3 v) (xm1mn v) (xm2mn v) (xm1fe v) (xm2fe v) (xm1co v) (xm2co v) (xm1ni v) (xm2ni v) (xm2ca v) (xm1mg v) (xm2mg v))
    (((DGDR0 (t v) (p v) (r0 v) (r1 v) (r2 v) (r3 v) (r4 v) (s0 v) (s1 v) (s2 v) (s3 v) (xm1mn v) (xm2mn v)
    (xm1mg v) (xm2mg v)) * dr0 + (DGDR1 (t v) (p v) (r0 v) (r1 v) (r2 v) (r3 v) (r4 v) (s0 v) (s1 v) (s2 v) (s3
    v) (xm1fe v) (xm2fe v) (xm1mg v) (xm2mg v)) * dr1 + (DGDR2 (t v) (p v) (r0 v) (r1 v) (r2 v) (r3 v) (r4 v)
    (s0 v) (s1 v) (s2 v) (s3 v) (xm1co v) (xm2co v) (xm1mg v) (xm2mg v)) * dr2 + (DGDR3 (t v) (p v) (r0 v) (r1
    v) (r2 v) (r3 v) (r4 v) (s0 v) (s1 v) (s2 v) (s3 v) (xm1ni v) (xm2ni v) (xm1mg v) (xm2mg v)) * dr3 + (DGDR4
    (t v) (p v) (r0 v) (r1 v) (r2 v) (r3 v) (r4 v) (s0 v) (s1 v) (s2 v) (s3 v) (xm2ca v) (xm2mg v)) * dr4) +
    ((DGDT (xm1mn v) (xm2mn v) (xm1fe v) (xm2fe v) (xm1co v) (xm2co v) (xm1ni v) (xm2ni v) (xm2ca v) (xm1mg v)
    (xm2mg v)) * dt + (DGDP (r0 v) (r1 v) (r2 v) (r3 v) (r4 v) (s0 v) (s1 v) (s2 v) (s3 v)) * dp) + ((DGDS0 (t
    v) (p v) (r0 v) (r1 v) (r2 v) (r3 v) (r4 v) (s0 v) (s1 v) (s2 v) (s3 v) (xm1mn v) (xm2mn v) (xm1mg v) (xm2mg
    v)) * ds0 + (DGDS1 (t v) (p v) (r0 v) (r1 v) (r2 v) (r3 v) (r4 v) (s0 v) (s1 v) (s2 v) (s3 v) (xm1fe v)
    (xm2fe v) (xm1mg v) (xm2mg v)) * ds1 + (DGDS2 (t v) (p v) (r0 v) (r1 v) (r2 v) (r3 v) (r4 v) (s0 v) (s1 v)
    (s2 v) (s3 v) (xm1co v) (xm2co v) (xm1mg v) (xm2mg v)) * ds2 + (DGDS3 (t v) (p v) (r0 v) (r1 v) (r2 v) (r3
    v) (r4 v) (s0 v) (s1 v) (s2 v) (s3 v) (xm1ni v) (xm2ni v) (xm1mg v) (xm2mg v)) * ds3)) v := by
  have nxm1mn := pxm1mn.ne'
  have nxm2mn := pxm2mn.ne'
  have nxm1fe := pxm1fe.ne'
  have nxm2fe := pxm2fe.ne'
  have nxm1co := pxm1co.ne'
  have nxm2co := pxm2co.ne'
  have nxm1ni := pxm1ni.ne'
  have nxm2ni := pxm2ni.ne'
  have nxm2ca := pxm2ca.ne'
  have nxm1mg := pxm1mg.ne'
  have nxm2mg := pxm2mg.ne'
  try simp only [H, S, G, DGDT, V, DGDP, DGDR0, DGDR1, DGDR2, DGDR3, DGDR4, DGDS0, DGDS1, DGDS2, DGDS3, zero_mul, mul_zero, add_zero, zero_add, sub_zero]
  have hG0 := k_G0 hp
  have hGR1 := k_GR1 hp
  have hGR2 := k_GR2 hp
  have hGR3 := k_GR3 hp
  have hGR4 := k_GR4 hp
  have hGR5 := k_GR5 hp
  have hGS1 := k_GS1 hp
  have hGS2 := k_GS2 hp
  have hGS3 := k_GS3 hp
  have hGS4 := k_GS4 hp
  have hGR1R1 := k_GR1R1 hp
  have hGR1R2 := k_GR1R2 hp
  have hGR1R3 := k_GR1R3 hp
  have hGR1R4 := k_GR1R4 hp
  have hGR1R5 := k_GR1R5 hp
  have hGR1S1 := k_GR1S1 hp
  have hGR1S2 := k_GR1S2 hp
  have hGR1S3 := k_GR1S3 hp
  have hGR1S4 := k_GR1S4 hp
  have hGR2R2 := k_GR2R2 hp
  have hGR2R3 := k_GR2R3 hp
  have hGR2R4 := k_GR2R4 hp
  have hGR2R5 := k_GR2R5 hp
  have hGR2S1 := k_GR2S1 hp
  have hGR2S2 := k_GR2S2 hp
  have hGR2S3 := k_GR2S3 hp
  have hGR2S4 := k_GR2S4 hp
  have hGR3R3 := k_GR3R3 hp
  have hGR3R4 := k_GR3R4 hp
  have hGR3R5 := k_GR3R5 hp
  have hGR3S1 := k_GR3S1 hp
  have hGR3S2 := k_GR3S2 hp
  have hGR3S3 := k_GR3S3 hp
  have hGR3S4 := k_GR3S4 hp
  have hGR4R4 := k_GR4R4 hp
  have hGR4R5 := k_GR4R5 hp
  have hGR4S1 := k_GR4S1 hp
  have hGR4S2 := k_GR4S2 hp
  have hGR4S3 := k_GR4S3 hp
  have hGR4S4 := k_GR4S4 hp
  have hGR5R5 := k_GR5R5 hp
  have hGR5S1 := k_GR5S1 hp
  have hGR5S2 := k_GR5S2 hp
  have hGR5S3 := k_GR5S3 hp
  have hGR5S4 := k_GR5S4 hp
  have hGS1S1 := k_GS1S1 hp
  have hGS1S2 := k_GS1S2 hp
  have hGS1S3 := k_GS1S3 hp
  have hGS1S4 := k_GS1S4 hp
  have hGS2S2 := k_GS2S2 hp
  have hGS2S3 := k_GS2S3 hp
  have hGS2S4 := k_GS2S4 hp
  have hGS3S3 := k_GS3S3 hp
  have hGS3S4 := k_GS3S4 hp
  have hGS4S4 := k_GS4S4 hp
  refine HasDerivAt.congr_deriv (by hdq) ?_
  try simp only [log4 nxm1mn nxm2mn nxm1mg nxm2mg, log4 nxm1fe nxm2fe nxm1mg nxm2mg, log4 nxm1co nxm2co nxm1mg nxm2mg, log4 nxm1ni nxm2ni nxm1mg nxm2mg, log2 nxm2ca nxm2mg, log4 nxm2mn nxm1mg nxm1mn nxm2mg, log4 nxm2fe nxm1mg nxm1fe nxm2mg, log4 nxm1co nxm2mg nxm2co nxm1mg, log4 nxm1ni nxm2mg nxm2ni nxm1mg]
  ring

lemma c_DGDR0 {t p r0 r1 r2 r3 r4 s0 s1 s2 s3 xm1mn xm2mn xm1mg xm2mg : ℝ → ℝ} {v dt dp dr0 dr1 dr2 dr3 dr4 ds0 ds1 ds2
    ds3 : ℝ} (ht : HasDerivAt t dt v) (hp : HasDerivAt p dp v) (hr0 : HasDerivAt r0 dr0 v) (hr1 : HasDerivAt r1
    dr1 v) (hr2 : HasDerivAt r2 dr2 v) (hr3 : HasDerivAt r3 dr3 v) (hr4 : HasDerivAt r4 dr4 v) (hs0 : HasDerivAt
    s0 ds0 v) (hs1 : HasDerivAt s1 ds1 v) (hs2 : HasDerivAt s2 ds2 v) (hs3 : HasDerivAt s3 ds3 v) (hxm1mn :
    HasDerivAt xm1mn ((1 / 2) * dr0 + (-(1) / 2) * ds0) v) (pxm1mn : 0 < xm1mn v) (hxm2mn : HasDerivAt xm2mn ((1
    / 2) * dr0 + (1 / 2) * ds0) v) (pxm2mn : 0 < xm2mn v) (hxm1mg : HasDerivAt xm1mg ((-(1) / 2) * dr0 + (-(1) /
    2) * dr1 + (-(1) / 2) * dr2 + (-(1) / 2) * dr3 + (1 / 2) * ds0 + (1 / 2) * ds1 + (-(1) / 2) * ds2 + (-(1) /
    2) * ds3) v) (pxm1mg : 0 < xm1mg v) (hxm2mg : HasDerivAt xm2mg ((-(1) / 2) * dr0 + (-(1) / 2) * dr1 + (-(1)
    / 2) * dr2 + (-(1) / 2) * dr3 + (-1) * dr4 + (-(1) / 2) * ds0 + (-(1) / 2) * ds1 + (1 / 2) * ds2 + (1 / 2) *
    ds3) v) (pxm2mg : 0 < xm2mg v) :
    HasDerivAt (fun v => DGDR0 (t v) (p v) (r0 v) (r1 v) (r2 v) (r3 v) (r4 v) (s0 v) (s1 v) (s2 v) (s3 v) (xm1mn v) (xm2mn v) (xm1mg v) (xm2mg v))
    (((D2GDR0R0 (t v) (p v) (xm1mn v) (xm2mn v) (xm1mg v) (xm2mg v)) * dr0 + (D2GDR0R1 (t v) (p v) (xm1mg v)
    (xm2mg v)) * dr1 + (D2GDR0R2 (t v) (p v) (xm1mg v) (xm2mg v)) * dr2 + (D2GDR0R3 (t v) (p v) (xm1mg v) (xm2mg
    v)) * dr3 + (D2GDR0R4 (t v) (p v) (xm2mg v)) * dr4) + ((D2GDR0DT (xm1mn v) (xm2mn v) (xm1mg v) (xm2mg v)) *
    dt + (D2GDR0DP (r0 v) (r1 v) (r2 v) (r3 v) (r4 v) (s0 v) (s1 v) (s2 v) (s3 v)) * dp) + ((D2GDR0S0 (t v) (p
    v) (xm1mn v) (xm2mn v) (xm1mg v) (xm2mg v)) * ds0 + (D2GDR0S1 (t v) (p v) (xm1mg v) (xm2mg v)) * ds1 +
    (D2GDR0S2 (t v) (p v) (xm1mg v) (xm2mg v)) * ds2 + (D2GDR0S3 (t v) (p v) (xm1mg v) (xm2mg v)) * ds3)) v := by
  have nxm1mn := pxm1mn.ne'
  have nxm2mn := pxm2mn.ne'
  have nxm1mg := pxm1mg.ne'
  have nxm2mg := pxm2mg.ne'
  try simp only [DGDR0, D2GDR0DT, D2GDR0DP, D2GDR0R0, D2GDR0R1, D2GDR0R2, D2GDR0R3, D2GDR0R4, D2GDR0S0, D2GDR0S1, D2GDR0S2, D2GDR0S3, zero_mul, mul_zero, add_zero, zero_add, sub_zero]
  have hGR1 := k_GR1 hp
  have hGR1R1 := k_GR1R1 hp
  have hGR1R2 := k_GR1R2 hp
  have hGR1R3 := k_GR1R3 hp
  have hGR1R4 := k_GR1R4 hp
  have hGR1R5 := k_GR1R5 hp
  have hGR1S1 := k_GR1S1 hp
  have hGR1S2 := k_GR1S2 hp
  have hGR1S3 := k_GR1S3 hp
  have hGR1S4 := k_GR1S4 hp
  refine HasDerivAt.congr_deriv (by hdq) ?_
  try simp only [log4 nxm1mn nxm2mn nxm1mg nxm2mg]
  ring

lemma c_DGDR1 {t p r0 r1 r2 r3 r4 s0 s1 s2 s3 xm1fe xm2fe xm1mg xm2mg : ℝ → ℝ} {v dt dp dr0 dr1 dr2 dr3 dr4 ds0 ds1 ds2
    ds3 : ℝ} (ht : HasDerivAt t dt v) (hp : HasDerivAt p dp v) (hr0 : HasDerivAt r0 dr0 v) (hr1 : HasDerivAt r1
    dr1 v) (hr2 : HasDerivAt r2 dr2 v) (hr3 : HasDerivAt r3 dr3 v) (hr4 : HasDerivAt r4 dr4 v) (hs0 : HasDerivAt
    s0 ds0 v) (hs1 : HasDerivAt s1 ds1 v) (hs2 : HasDerivAt s2 ds2 v) (hs3 : HasDerivAt s3 ds3 v) (hxm1fe :
    HasDerivAt xm1fe ((1 / 2) * dr1 + (-(1) / 2) * ds1) v) (pxm1fe : 0 < xm1fe v) (hxm2fe : HasDerivAt xm2fe ((1
    / 2) * dr1 + (1 / 2) * ds1) v) (pxm2fe : 0 < xm2fe v) (hxm1mg : HasDerivAt xm1mg ((-(1) / 2) * dr0 + (-(1) /
    2) * dr1 + (-(1) / 2) * dr2 + (-(1) / 2) * dr3 + (1 / 2) * ds0 + (1 / 2) * ds1 + (-(1) / 2) * ds2 + (-(1) /
    2) * ds3) v) (pxm1mg : 0 < xm1mg v) (hxm2mg : HasDerivAt xm2mg ((-(1) / 2) * dr0 + (-(1) / 2) * dr1 + (-(1)
    / 2) * dr2 + (-(1) / 2) * dr3 + (-1) * dr4 + (-(1) / 2) * ds0 + (-(1) / 2) * ds1 + (1 / 2) * ds2 + (1 / 2) *
    ds3) v) (pxm2mg : 0 < xm2mg v) :
    HasDerivAt (fun v => DGDR1 (t v) (p v) (r0 v) (r1 v) (r2 v) (r3 v) (r4 v) (s0 v) (s1 v) (s2 v) (s3 v) (xm1fe v) (xm2fe v) (xm1mg v) (xm2mg v))
    (((D2GDR0R1 (t v) (p v) (xm1mg v) (xm2mg v)) * dr0 + (D2GDR1R1 (t v) (p v) (xm1fe v) (xm2fe v) (xm1mg v)
    (xm2mg v)) * dr1 + (D2GDR1R2 (t v) (p v) (xm1mg v) (xm2mg v)) * dr2 + (D2GDR1R3 (t v) (p v) (xm1mg v) (xm2mg
    v)) * dr3 + (D2GDR1R4 (t v) (p v) (xm2mg v)) * dr4) + ((D2GDR1DT (xm1fe v) (xm2fe v) (xm1mg v) (xm2mg v)) *
    dt + (D2GDR1DP (r0 v) (r1 v) (r2 v) (r3 v) (r4 v) (s0 v) (s1 v) (s2 v) (s3 v)) * dp) + ((D2GDR1S0 (t v) (p
    v) (xm1mg v) (xm2mg v)) * ds0 + (D2GDR1S1 (t v) (p v) (xm1fe v) (xm2fe v) (xm1mg v) (xm2mg v)) * ds1 +
    (D2GDR1S2 (t v) (p v) (xm1mg v) (xm2mg v)) * ds2 + (D2GDR1S3 (t v) (p v) (xm1mg v) (xm2mg v)) * ds3)) v := by
  have nxm1fe := pxm1fe.ne'
  have nxm2fe := pxm2fe.ne'
  have nxm1mg := pxm1mg.ne'
  have nxm2mg := pxm2mg.ne'
  try simp only [DGDR1, D2GDR1DT, D2GDR1DP, D2GDR0R1, D2GDR1R1, D2GDR1R2, D2GDR1R3, D2GDR1R4, D2GDR1S0, D2GDR1S1, D2GDR1S2, D2GDR1S3, zero_mul, mul_zero, add_zero, zero_add, sub_zero]
  have hGR2 := k_GR2 hp
  have hGR2R2 := k_GR2R2 hp
  have hGR1R2 := k_GR1R2 hp
  have hGR2R3 := k_GR2R3 hp
  have hGR2R4 := k_GR2R4 hp
  have hGR2R5 := k_GR2R5 hp
  have hGR2S1 := k_GR2S1 hp
  have hGR2S2 := k_GR2S2 hp
  have hGR2S3 := k_GR2S3 hp
  have hGR2S4 := k_GR2S4 hp
  refine HasDerivAt.congr_deriv (by hdq) ?_
  try simp only [log4 nxm1fe nxm2fe nxm1mg nxm2mg]
  ring

lemma c_DGDR2 {t p r0 r1 r2 r3 r4 s0 s1 s2 s3 xm1co xm2co xm1mg xm2mg : ℝ → ℝ} {v dt dp dr0 dr1 dr2 dr3 dr4 ds0 ds1 ds2
    ds3 : ℝ} (ht : HasDerivAt t dt v) (hp : HasDerivAt p dp v) (hr0 : HasDerivAt r0 dr0 v) (hr1 : HasDerivAt r1
    dr1 v) (hr2 : HasDerivAt r2 dr2 v) (hr3 : HasDerivAt r3 dr3 v) (hr4 : HasDerivAt r4 dr4 v) (hs0 : HasDerivAt
    s0 ds0 v) (hs1 : HasDerivAt s1 ds1 v) (hs2 : HasDerivAt s2 ds2 v) (hs3 : HasDerivAt s3 ds3 v) (hxm1co :
    HasDerivAt xm1co ((1 / 2) * dr2 + (1 / 2) * ds2) v) (pxm1co : 0 < xm1co v) (hxm2co : HasDerivAt xm2co ((1 /
    2) * dr2 + (-(1) / 2) * ds2) v) (pxm2co : 0 < xm2co v) (hxm1mg : HasDerivAt xm1mg ((-(1) / 2) * dr0 + (-(1)
    / 2) * dr1 + (-(1) / 2) * dr2 + (-(1) / 2) * dr3 + (1 / 2) * ds0 + (1 / 2) * ds1 + (-(1) / 2) * ds2 + (-(1)
    / 2) * ds3) v) (pxm1mg : 0 < xm1mg v) (hxm2mg : HasDerivAt xm2mg ((-(1) / 2) * dr0 + (-(1) / 2) * dr1 +
    (-(1) / 2) * dr2 + (-(1) / 2) * dr3 + (-1) * dr4 + (-(1) / 2) * ds0 + (-(1) / 2) * ds1 + (1 / 2) * ds2 + (1
    / 2) * ds3) v) (pxm2mg : 0 < xm2mg v) :
    HasDerivAt (fun v => DGDR2 (t v) (p v) (r0 v) (r1 v) (r2 v) (r3 v) (r4 v) (s0 v) (s1 v) (s2 v) (s3 v) (xm1co v) (xm2co v) (xm1mg v) (xm2mg v))
    (((D2GDR0R2 (t v) (p v) (xm1mg v) (xm2mg v)) * dr0 + (D2GDR1R2 (t v) (p v) (xm1mg v) (xm2mg v)) * dr1 +
    (D2GDR2R2 (t v) (p v) (xm1co v) (xm2co v) (xm1mg v) (xm2mg v)) * dr2 + (D2GDR2R3 (t v) (p v) (xm1mg v)
    (xm2mg v)) * dr3 + (D2GDR2R4 (t v) (p v) (xm2mg v)) * dr4) + ((D2GDR2DT (xm1co v) (xm2co v) (xm1mg v) (xm2mg
    v)) * dt + (D2GDR2DP (r0 v) (r1 v) (r2 v) (r3 v) (r4 v) (s0 v) (s1 v) (s2 v) (s3 v)) * dp) + ((D2GDR2S0 (t
    v) (p v) (xm1mg v) (xm2mg v)) * ds0 + (D2GDR2S1 (t v) (p v) (xm1mg v) (xm2mg v)) * ds1 + (D2GDR2S2 (t v) (p
    v) (xm1co v) (xm2co v) (xm1mg v) (xm2mg v)) * ds2 + (D2GDR2S3 (t v) (p v) (xm1mg v) (xm2mg v)) * ds3)) v := by
  have nxm1co := pxm1co.ne'
  have nxm2co := pxm2co.ne'
  have nxm1mg := pxm1mg.ne'
  have nxm2mg := pxm2mg.ne'
  try simp only [DGDR2, D2GDR2DT, D2GDR2DP, D2GDR0R2, D2GDR1R2, D2GDR2R2, D2GDR2R3, D2GDR2R4, D2GDR2S0, D2GDR2S1, D2GDR2S2, D2GDR2S3, zero_mul, mul_zero, add_zero, zero_add, sub_zero]
  have hGR3 := k_GR3 hp
  have hGR3R3 := k_GR3R3 hp
  have hGR1R3 := k_GR1R3 hp
  have hGR2R3 := k_GR2R3 hp
  have hGR3R4 := k_GR3R4 hp
  have hGR3R5 := k_GR3R5 hp
  have hGR3S1 := k_GR3S1 hp
  have hGR3S2 := k_GR3S2 hp
  have hGR3S3 := k_GR3S3 hp
  have hGR3S4 := k_GR3S4 hp
  refine HasDerivAt.congr_deriv (by hdq) ?_
  try simp only [log4 nxm1co nxm2co nxm1mg nxm2mg]
  ring

lemma c_DGDR3 {t p r0 r1 r2 r3 r4 s0 s1 s2 s3 xm1ni xm2ni xm1mg xm2mg : ℝ → ℝ} {v dt dp dr0 dr1 dr2 dr3 dr4 ds0 ds1 ds2
    ds3 : ℝ} (ht : HasDerivAt t dt v) (hp : HasDerivAt p dp v) (hr0 : HasDerivAt r0 dr0 v) (hr1 : HasDerivAt r1
    dr1 v) (hr2 : HasDerivAt r2 dr2 v) (hr3 : HasDerivAt r3 dr3 v) (hr4 : HasDerivAt r4 dr4 v) (hs0 : HasDerivAt
    s0 ds0 v) (hs1 : HasDerivAt s1 ds1 v) (hs2 : HasDerivAt s2 ds2 v) (hs3 : HasDerivAt s3 ds3 v) (hxm1ni :
    HasDerivAt xm1ni ((1 / 2) * dr3 + (1 / 2) * ds3) v) (pxm1ni : 0 < xm1ni v) (hxm2ni : HasDerivAt xm2ni ((1 /
    2) * dr3 + (-(1) / 2) * ds3) v) (pxm2ni : 0 < xm2ni v) (hxm1mg : HasDerivAt xm1mg ((-(1) / 2) * dr0 + (-(1)
    / 2) * dr1 + (-(1) / 2) * dr2 + (-(1) / 2) * dr3 + (1 / 2) * ds0 + (1 / 2) * ds1 + (-(1) / 2) * ds2 + (-(1)
    / 2) * ds3) v) (pxm1mg : 0 < xm1mg v) (hxm2mg : HasDerivAt xm2mg ((-(1) / 2) * dr0 + (-(1) / 2) * dr1 +
    (-(1) / 2) * dr2 + (-(1) / 2) * dr3 + (-1) * dr4 + (-(1) / 2) * ds0 + (-(1) / 2) * ds1 + (1 / 2) * ds2 + (1
    / 2) * ds3) v) (pxm2mg : 0 < xm2mg v) :
    HasDerivAt (fun v => DGDR3 (t v) (p v) (r0 v) (r1 v) (r2 v) (r3 v) (r4 v) (s0 v) (s1 v) (s2 v) (s3 v) (xm1ni v) (xm2ni v) (xm1mg v) (xm2mg v))
    (((D2GDR0R3 (t v) (p v) (xm1mg v) (xm2mg v)) * dr0 + (D2GDR1R3 (t v) (p v) (xm1mg v) (xm2mg v)) * dr1 +
    (D2GDR2R3 (t v) (p v) (xm1mg v) (xm2mg v)) * dr2 + (D2GDR3R3 (t v) (p v) (xm1ni v) (xm2ni v) (xm1mg v)
    (xm2mg v)) * dr3 + (D2GDR3R4 (t v) (p v) (xm2mg v)) * dr4) + ((D2GDR3DT (xm1ni v) (xm2ni v) (xm1mg v) (xm2mg
    v)) * dt + (D2GDR3DP (r0 v) (r1 v) (r2 v) (r3 v) (r4 v) (s0 v) (s1 v) (s2 v) (s3 v)) * dp) + ((D2GDR3S0 (t
    v) (p v) (xm1mg v) (xm2mg v)) * ds0 + (D2GDR3S1 (t v) (p v) (xm1mg v) (xm2mg v)) * ds1 + (D2GDR3S2 (t v) (p
    v) (xm1mg v) (xm2mg v)) * ds2 + (D2GDR3S3 (t v) (p v) (xm1ni v) (xm2ni v) (xm1mg v) (xm2mg v)) * ds3)) v := by
  have nxm1ni := pxm1ni.ne'
  have nxm2ni := pxm2ni.ne'
  have nxm1mg := pxm1mg.ne'
  have nxm2mg := pxm2mg.ne'
  try simp only [DGDR3, D2GDR3DT, D2GDR3DP, D2GDR0R3, D2GDR1R3, D2GDR2R3, D2GDR3R3, D2GDR3R4, D2GDR3S0, D2GDR3S1, D2GDR3S2, D2GDR3S3, zero_mul, mul_zero, add_zero, zero_add, sub_zero]
  have hGR4 := k_GR4 hp
  have hGR4R4 := k_GR4R4 hp
  have hGR1R4 := k_GR1R4 hp
  have hGR2R4 := k_GR2R4 hp
  have hGR3R4 := k_GR3R4 hp
  have hGR4R5 := k_GR4R5 hp
  have hGR4S1 := k_GR4S1 hp
  have hGR4S2 := k_GR4S2 hp
  have hGR4S3 := k_GR4S3 hp
  have hGR4S4 := k_GR4S4 hp
  refine HasDerivAt.congr_deriv (by hdq) ?_
  try simp only [log4 nxm1ni nxm2ni nxm1mg nxm2mg]
  ring

lemma c_DGDR4 {t p r0 r1 r2 r3 r4 s0 s1 s2 s3 xm2ca xm2mg : ℝ → ℝ} {v dt dp dr0 dr1 dr2 dr3 dr4 ds0 ds1 ds2 ds3 : ℝ} (ht :
    HasDerivAt t dt v) (hp : HasDerivAt p dp v) (hr0 : HasDerivAt r0 dr0 v) (hr1 : HasDerivAt r1 dr1 v) (hr2 :
    HasDerivAt r2 dr2 v) (hr3 : HasDerivAt r3 dr3 v) (hr4 : HasDerivAt r4 dr4 v) (hs0 : HasDerivAt s0 ds0 v)
    (hs1 : HasDerivAt s1 ds1 v) (hs2 : HasDerivAt s2 ds2 v) (hs3 : HasDerivAt s3 ds3 v) (hxm2ca : HasDerivAt
    xm2ca (1 * dr4) v) (pxm2ca : 0 < xm2ca v) (hxm2mg : HasDerivAt xm2mg ((-(1) / 2) * dr0 + (-(1) / 2) * dr1 +
    (-(1) / 2) * dr2 + (-(1) / 2) * dr3 + (-1) * dr4 + (-(1) / 2) * ds0 + (-(1) / 2) * ds1 + (1 / 2) * ds2 + (1
    / 2) * ds3) v) (pxm2mg : 0 < xm2mg v) :
    HasDerivAt (fun v => DGDR4 (t v) (p v) (r0 v) (r1 v) (r2 v) (r3 v) (r4 v) (s0 v) (s1 v) (s2 v) (s3 v) (xm2ca v) (xm2mg v))
    (((D2GDR0R4 (t v) (p v) (xm2mg v)) * dr0 + (D2GDR1R4 (t v) (p v) (xm2mg v)) * dr1 + (D2GDR2R4 (t v) (p v)
    (xm2mg v)) * dr2 + (D2GDR3R4 (t v) (p v) (xm2mg v)) * dr3 + (D2GDR4R4 (t v) (p v) (xm2ca v) (xm2mg v)) *
    dr4) + ((D2GDR4DT (xm2ca v) (xm2mg v)) * dt + (D2GDR4DP (r0 v) (r1 v) (r2 v) (r3 v) (r4 v) (s0 v) (s1 v) (s2
    v) (s3 v)) * dp) + ((D2GDR4S0 (t v) (p v) (xm2mg v)) * ds0 + (D2GDR4S1 (t v) (p v) (xm2mg v)) * ds1 +
    (D2GDR4S2 (t v) (p v) (xm2mg v)) * ds2 + (D2GDR4S3 (t v) (p v) (xm2mg v)) * ds3)) v := by
  have nxm2ca := pxm2ca.ne'
  have nxm2mg := pxm2mg.ne'
  try simp only [DGDR4, D2GDR4DT, D2GDR4DP, D2GDR0R4, D2GDR1R4, D2GDR2R4, D2GDR3R4, D2GDR4R4, D2GDR4S0, D2GDR4S1, D2GDR4S2, D2GDR4S3, zero_mul, mul_zero, add_zero, zero_add, sub_zero]
  have hGR5 := k_GR5 hp
  have hGR5R5 := k_GR5R5 hp
  have hGR1R5 := k_GR1R5 hp
  have hGR2R5 := k_GR2R5 hp
  have hGR3R5 := k_GR3R5 hp
  have hGR4R5 := k_GR4R5 hp
  have hGR5S1 := k_GR5S1 hp
  have hGR5S2 := k_GR5S2 hp
  have hGR5S3 := k_GR5S3 hp
  have hGR5S4 := k_GR5S4 hp
  refine HasDerivAt.congr_deriv (by hdq) ?_
  try simp only [log2 nxm2ca nxm2mg]
  ring

lemma c_DGDS0 {t p r0 r1 r2 r3 r4 s0 s1 s2 s3 xm1mn xm2mn xm1mg xm2mg : ℝ → ℝ} {v dt dp dr0 dr1 dr2 dr3 dr4 ds0 ds1 ds2
    ds3 : ℝ} (ht : HasDerivAt t dt v) (hp : HasDerivAt p dp v) (hr0 : HasDerivAt r0 dr0 v) (hr1 : HasDerivAt r1
    dr1 v) (hr2 : HasDerivAt r2 dr2 v) (hr3 : HasDerivAt r3 dr3 v) (hr4 : HasDerivAt r4 dr4 v) (hs0 : HasDerivAt
    s0 ds0 v) (hs1 : HasDerivAt s1 ds1 v) (hs2 : HasDerivAt s2 ds2 v) (hs3 : HasDerivAt s3 ds3 v) (hxm1mn :
    HasDerivAt xm1mn ((1 / 2) * dr0 + (-(1) / 2) * ds0) v) (pxm1mn : 0 < xm1mn v) (hxm2mn : HasDerivAt xm2mn ((1
    / 2) * dr0 + (1 / 2) * ds0) v) (pxm2mn : 0 < xm2mn v) (hxm1mg : HasDerivAt xm1mg ((-(1) / 2) * dr0 + (-(1) /
    2) * dr1 + (-(1) / 2) * dr2 + (-(1) / 2) * dr3 + (1 / 2) * ds0 + (1 / 2) * ds1 + (-(1) / 2) * ds2 + (-(1) /
    2) * ds3) v) (pxm1mg : 0 < xm1mg v) (hxm2mg : HasDerivAt xm2mg ((-(1) / 2) * dr0 + (-(1) / 2) * dr1 + (-(1)
    / 2) * dr2 + (-(1) / 2) * dr3 + (-1) * dr4 + (-(1) / 2) * ds0 + (-(1) / 2) * ds1 + (1 / 2) * ds2 + (1 / 2) *
    ds3) v) (pxm2mg : 0 < xm2mg v) :
    HasDerivAt (fun v => DGDS0 (t v) (p v) (r0 v) (r1 v) (r2 v) (r3 v) (r4 v) (s0 v) (s1 v) (s2 v) (s3 v) (xm1mn v) (xm2mn v) (xm1mg v) (xm2mg v))
    (((D2GDR0S0 (t v) (p v) (xm1mn v) (xm2mn v) (xm1mg v) (xm2mg v)) * dr0 + (D2GDR1S0 (t v) (p v) (xm1mg v)
    (xm2mg v)) * dr1 + (D2GDR2S0 (t v) (p v) (xm1mg v) (xm2mg v)) * dr2 + (D2GDR3S0 (t v) (p v) (xm1mg v) (xm2mg
    v)) * dr3 + (D2GDR4S0 (t v) (p v) (xm2mg v)) * dr4) + ((D2GDS0DT (xm1mn v) (xm2mn v) (xm1mg v) (xm2mg v)) *
    dt + (D2GDS0DP (r0 v) (r1 v) (r2 v) (r3 v) (r4 v) (s0 v) (s1 v) (s2 v) (s3 v)) * dp) + ((D2GDS0S0 (t v) (p
    v) (xm1mn v) (xm2mn v) (xm1mg v) (xm2mg v)) * ds0 + (D2GDS0S1 (t v) (p v) (xm1mg v) (xm2mg v)) * ds1 +
    (D2GDS0S2 (t v) (p v) (xm1mg v) (xm2mg v)) * ds2 + (D2GDS0S3 (t v) (p v) (xm1mg v) (xm2mg v)) * ds3)) v := by
  have nxm1mn := pxm1mn.ne'
  have nxm2mn := pxm2mn.ne'
  have nxm1mg := pxm1mg.ne'
  have nxm2mg := pxm2mg.ne'
  try simp only [DGDS0, D2GDS0DT, D2GDS0DP, D2GDR0S0, D2GDR1S0, D2GDR2S0, D2GDR3S0, D2GDR4S0, D2GDS0S0, D2GDS0S1, D2GDS0S2, D2GDS0S3, zero_mul, mul_zero, add_zero, zero_add, sub_zero]
  have hGS1 := k_GS1 hp
  have hGS1S1 := k_GS1S1 hp
  have hGR1S1 := k_GR1S1 hp
  have hGR2S1 := k_GR2S1 hp
  have hGR3S1 := k_GR3S1 hp
  have hGR4S1 := k_GR4S1 hp
  have hGR5S1 := k_GR5S1 hp
  have hGS1S2 := k_GS1S2 hp
  have hGS1S3 := k_GS1S3 hp
  have hGS1S4 := k_GS1S4 hp
  refine HasDerivAt.congr_deriv (by hdq) ?_
  try simp only [log4 nxm2mn nxm1mg nxm1mn nxm2mg]
  ring

lemma c_DGDS1 {t p r0 r1 r2 r3 r4 s0 s1 s2 s3 xm1fe xm2fe xm1mg xm2mg : ℝ → ℝ} {v dt dp dr0 dr1 dr2 dr3 dr4 ds0 ds1 ds2
    ds3 : ℝ} (ht : HasDerivAt t dt v) (hp : HasDerivAt p dp v) (hr0 : HasDerivAt r0 dr0 v) (hr1 : HasDerivAt r1
    dr1 v) (hr2 : HasDerivAt r2 dr2 v) (hr3 : HasDerivAt r3 dr3 v) (hr4 : HasDerivAt r4 dr4 v) (hs0 : HasDerivAt
    s0 ds0 v) (hs1 : HasDerivAt s1 ds1 v) (hs2 : HasDerivAt s2 ds2 v) (hs3 : HasDerivAt s3 ds3 v) (hxm1fe :
    HasDerivAt xm1fe ((1 / 2) * dr1 + (-(1) / 2) * ds1) v) (pxm1fe : 0 < xm1fe v) (hxm2fe : HasDerivAt xm2fe ((1
    / 2) * dr1 + (1 / 2) * ds1) v) (pxm2fe : 0 < xm2fe v) (hxm1mg : HasDerivAt xm1mg ((-(1) / 2) * dr0 + (-(1) /
    2) * dr1 + (-(1) / 2) * dr2 + (-(1) / 2) * dr3 + (1 / 2) * ds0 + (1 / 2) * ds1 + (-(1) / 2) * ds2 + (-(1) /
    2) * ds3) v) (pxm1mg : 0 < xm1mg v) (hxm2mg : HasDerivAt xm2mg ((-(1) / 2) * dr0 + (-(1) / 2) * dr1 + (-(1)
    / 2) * dr2 + (-(1) / 2) * dr3 + (-1) * dr4 + (-(1) / 2) * ds0 + (-(1) / 2) * ds1 + (1 / 2) * ds2 + (1 / 2) *
    ds3) v) (pxm2mg : 0 < xm2mg v) :
    HasDerivAt (fun v => DGDS1 (t v) (p v) (r0 v) (r1 v) (r2 v) (r3 v) (r4 v) (s0 v) (s1 v) (s2 v) (s3 v) (xm1fe v) (xm2fe v) (xm1mg v) (xm2mg v))
    (((D2GDR0S1 (t v) (p v) (xm1mg v) (xm2mg v)) * dr0 + (D2GDR1S1 (t v) (p v) (xm1fe v) (xm2fe v) (xm1mg v)
    (xm2mg v)) * dr1 + (D2GDR2S1 (t v) (p v) (xm1mg v) (xm2mg v)) * dr2 + (D2GDR3S1 (t v) (p v) (xm1mg v) (xm2mg
    v)) * dr3 + (D2GDR4S1 (t v) (p v) (xm2mg v)) * dr4) + ((D2GDS1DT (xm1fe v) (xm2fe v) (xm1mg v) (xm2mg v)) *
    dt + (D2GDS1DP (r0 v) (r1 v) (r2 v) (r3 v) (r4 v) (s0 v) (s1 v) (s2 v) (s3 v)) * dp) + ((D2GDS0S1 (t v) (p
    v) (xm1mg v) (xm2mg v)) * ds0 + (D2GDS1S1 (t v) (p v) (xm1fe v) (xm2fe v) (xm1mg v) (xm2mg v)) * ds1 +
    (D2GDS1S2 (t v) (p v) (xm1mg v) (xm2mg v)) * ds2 + (D2GDS1S3 (t v) (p v) (xm1mg v) (xm2mg v)) * ds3)) v := by
  have nxm1fe := pxm1fe.ne'
  have nxm2fe := pxm2fe.ne'
  have nxm1mg := pxm1mg.ne'
  have nxm2mg := pxm2mg.ne'
  try simp only [DGDS1, D2GDS1DT, D2GDS1DP, D2GDR0S1, D2GDR1S1, D2GDR2S1, D2GDR3S1, D2GDR4S1, D2GDS0S1, D2GDS1S1, D2GDS1S2, D2GDS1S3, zero_mul, mul_zero, add_zero, zero_add, sub_zero]
  have hGS2 := k_GS2 hp
  have hGS2S2 := k_GS2S2 hp
  have hGR1S2 := k_GR1S2 hp
  have hGR2S2 := k_GR2S2 hp
  have hGR3S2 := k_GR3S2 hp
  have hGR4S2 := k_GR4S2 hp
  have hGR5S2 := k_GR5S2 hp
  have hGS1S2 := k_GS1S2 hp
  have hGS2S3 := k_GS2S3 hp
  have hGS2S4 := k_GS2S4 hp
  refine HasDerivAt.congr_deriv (by hdq) ?_
  try simp only [log4 nxm2fe nxm1mg nxm1fe nxm2mg]
  ring

lemma c_DGDS2 {t p r0 r1 r2 r3 r4 s0 s1 s2 s3 xm1co xm2co xm1mg xm2mg : ℝ → ℝ} {v dt dp dr0 dr1 dr2 dr3 dr4 ds0 ds1 ds2
    ds3 : ℝ} (ht : HasDerivAt t dt v) (hp : HasDerivAt p dp v) (hr0 : HasDerivAt r0 dr0 v) (hr1 : HasDerivAt r1
    dr1 v) (hr2 : HasDerivAt r2 dr2 v) (hr3 : HasDerivAt r3 dr3 v) (hr4 : HasDerivAt r4 dr4 v) (hs0 : HasDerivAt
    s0 ds0 v) (hs1 : HasDerivAt s1 ds1 v) (hs2 : HasDerivAt s2 ds2 v) (hs3 : HasDerivAt s3 ds3 v) (hxm1co :
    HasDerivAt xm1co ((1 / 2) * dr2 + (1 / 2) * ds2) v) (pxm1co : 0 < xm1co v) (hxm2co : HasDerivAt xm2co ((1 /
    2) * dr2 + (-(1) / 2) * ds2) v) (pxm2co : 0 < xm2co v) (hxm1mg : HasDerivAt xm1mg ((-(1) / 2) * dr0 + (-(1)
    / 2) * dr1 + (-(1) / 2) * dr2 + (-(1) / 2) * dr3 + (1 / 2) * ds0 + (1 / 2) * ds1 + (-(1) / 2) * ds2 + (-(1)
    / 2) * ds3) v) (pxm1mg : 0 < xm1mg v) (hxm2mg : HasDerivAt xm2mg ((-(1) / 2) * dr0 + (-(1) / 2) * dr1 +
    (-(1) / 2) * dr2 + (-(1) / 2) * dr3 + (-1) * dr4 + (-(1) / 2) * ds0 + (-(1) / 2) * ds1 + (1 / 2) * ds2 + (1
    / 2) * ds3) v) (pxm2mg : 0 < xm2mg v) :
    HasDerivAt (fun v => DGDS2 (t v) (p v) (r0 v) (r1 v) (r2 v) (r3 v) (r4 v) (s0 v) (s1 v) (s2 v) (s3 v) (xm1co v) (xm2co v) (xm1mg v) (xm2mg v))
    (((D2GDR0S2 (t v) (p v) (xm1mg v) (xm2mg v)) * dr0 + (D2GDR1S2 (t v) (p v) (xm1mg v) (xm2mg v)) * dr1 +
    (D2GDR2S2 (t v) (p v) (xm1co v) (xm2co v) (xm1mg v) (xm2mg v)) * dr2 + (D2GDR3S2 (t v) (p v) (xm1mg v)
    (xm2mg v)) * dr3 + (D2GDR4S2 (t v) (p v) (xm2mg v)) * dr4) + ((D2GDS2DT (xm1co v) (xm2co v) (xm1mg v) (xm2mg
    v)) * dt + (D2GDS2DP (r0 v) (r1 v) (r2 v) (r3 v) (r4 v) (s0 v) (s1 v) (s2 v) (s3 v)) * dp) + ((D2GDS0S2 (t
    v) (p v) (xm1mg v) (xm2mg v)) * ds0 + (D2GDS1S2 (t v) (p v) (xm1mg v) (xm2mg v)) * ds1 + (D2GDS2S2 (t v) (p
    v) (xm1co v) (xm2co v) (xm1mg v) (xm2mg v)) * ds2 + (D2GDS2S3 (t v) (p v) (xm1mg v) (xm2mg v)) * ds3)) v := by
  have nxm1co := pxm1co.ne'
  have nxm2co := pxm2co.ne'
  have nxm1mg := pxm1mg.ne'
  have nxm2mg := pxm2mg.ne'
  try simp only [DGDS2, D2GDS2DT, D2GDS2DP, D2GDR0S2, D2GDR1S2, D2GDR2S2, D2GDR3S2, D2GDR4S2, D2GDS0S2, D2GDS1S2, D2GDS2S2, D2GDS2S3, zero_mul, mul_zero, add_zero, zero_add, sub_zero]
  have hGS3 := k_GS3 hp
  have hGS3S3 := k_GS3S3 hp
  have hGR1S3 := k_GR1S3 hp
  have hGR2S3 := k_GR2S3 hp
  have hGR3S3 := k_GR3S3 hp
  have hGR4S3 := k_GR4S3 hp
  have hGR5S3 := k_GR5S3 hp
  have hGS1S3 := k_GS1S3 hp
  have hGS2S3 := k_GS2S3 hp
  have hGS3S4 := k_GS3S4 hp
  refine HasDerivAt.congr_deriv (by hdq) ?_
  try simp only [log4 nxm1co nxm2mg nxm2co nxm1mg]
  ring

lemma c_DGDS3 {t p r0 r1 r2 r3 r4 s0 s1 s2 s3 xm1ni xm2ni xm1mg xm2mg : ℝ → ℝ} {v dt dp dr0 dr1 dr2 dr3 dr4 ds0 ds1 ds2
    ds3 : ℝ} (ht : HasDerivAt t dt v) (hp : HasDerivAt p dp v) (hr0 : HasDerivAt r0 dr0 v) (hr1 : HasDerivAt r1
    dr1 v) (hr2 : HasDerivAt r2 dr2 v) (hr3 : HasDerivAt r3 dr3 v) (hr4 : HasDerivAt r4 dr4 v) (hs0 : HasDerivAt
    s0 ds0 v) (hs1 : HasDerivAt s1 ds1 v) (hs2 : HasDerivAt s2 ds2 v) (hs3 : HasDerivAt s3 ds3 v) (hxm1ni :
    HasDerivAt xm1ni ((1 / 2) * dr3 + (1 / 2) * ds3) v) (pxm1ni : 0 < xm1ni v) (hxm2ni : HasDerivAt xm2ni ((1 /
    2) * dr3 + (-(1) / 2) * ds3) v) (pxm2ni : 0 < xm2ni v) (hxm1mg : HasDerivAt xm1mg ((-(1) / 2) * dr0 + (-(1)
    / 2) * dr1 + (-(1) / 2) * dr2 + (-(1) / 2) * dr3 + (1 / 2) * ds0 + (1 / 2) * ds1 + (-(1) / 2) * ds2 + (-(1)
    / 2) * ds3) v) (pxm1mg : 0 < xm1mg v) (hxm2mg : HasDerivAt xm2mg ((-(1) / 2) * dr0 + (-(1) / 2) * dr1 +
    (-(1) / 2) * dr2 + (-(1) / 2) * dr3 + (-1) * dr4 + (-(1) / 2) * ds0 + (-(1) / 2) * ds1 + (1 / 2) * ds2 + (1
    / 2) * ds3) v) (pxm2mg : 0 < xm2mg v) :
    HasDerivAt (fun v => DGDS3 (t v) (p v) (r0 v) (r1 v) (r2 v) (r3 v) (r4 v) (s0 v) (s1 v) (s2 v) (s3 v) (xm1ni v) (xm2ni v) (xm1mg v) (xm2mg v))
    (((D2GDR0S3 (t v) (p v) (xm1mg v) (xm2mg v)) * dr0 + (D2GDR1S3 (t v) (p v) (xm1mg v) (xm2mg v)) * dr1 +
    (D2GDR2S3 (t v) (p v) (xm1mg v) (xm2mg v)) * dr2 + (D2GDR3S3 (t v) (p v) (xm1ni v) (xm2ni v) (xm1mg v)
    (xm2mg v)) * dr3 + (D2GDR4S3 (t v) (p v) (xm2mg v)) * dr4) + ((D2GDS3DT (xm1ni v) (xm2ni v) (xm1mg v) (xm2mg
    v)) * dt + (D2GDS3DP (r0 v) (r1 v) (r2 v) (r3 v) (r4 v) (s0 v) (s1 v) (s2 v) (s3 v)) * dp) + ((D2GDS0S3 (t
    v) (p v) (xm1mg v) (xm2mg v)) * ds0 + (D2GDS1S3 (t v) (p v) (xm1mg v) (xm2mg v)) * ds1 + (D2GDS2S3 (t v) (p
    v) (xm1mg v) (xm2mg v)) * ds2 + (D2GDS3S3 (t v) (p v) (xm1ni v) (xm2ni v) (xm1mg v) (xm2mg v)) * ds3)) v := by
  have nxm1ni := pxm1ni.ne'
  have nxm2ni := pxm2ni.ne'
  have nxm1mg := pxm1mg.ne'
  have nxm2mg := pxm2mg.ne'
  try simp only [DGDS3, D2GDS3DT, D2GDS3DP, D2GDR0S3, D2GDR1S3, D2GDR2S3, D2GDR3S3, D2GDR4S3, D2GDS0S3, D2GDS1S3, D2GDS2S3, D2GDS3S3, zero_mul, mul_zero, add_zero, zero_add, sub_zero]
  have hGS4 := k_GS4 hp
  have hGS4S4 := k_GS4S4 hp
  have hGR1S4 := k_GR1S4 hp
  have hGR2S4 := k_GR2S4 hp
  have hGR3S4 := k_GR3S4 hp
  have hGR4S4 := k_GR4S4 hp
  have hGR5S4 := k_GR5S4 hp
  have hGS1S4 := k_GS1S4 hp
  have hGS2S4 := k_GS2S4 hp
  have hGS3S4 := k_GS3S4 hp
  refine HasDerivAt.congr_deriv (by hdq) ?_
  try simp only [log4 nxm1ni nxm2mg nxm2ni nxm1mg]
  ring

lemma c_DGDT {t p r0 r1 r2 r3 r4 s0 s1 s2 s3 xm1mn xm2mn xm1fe xm2fe xm1co xm2co xm1ni xm2ni xm2ca xm1mg xm2mg : ℝ → ℝ}
    {v dt dp dr0 dr1 dr2 dr3 dr4 ds0 ds1 ds2 ds3 : ℝ} (ht : HasDerivAt t dt v) (hp : HasDerivAt p dp v) (hr0 :
    HasDerivAt r0 dr0 v) (hr1 : HasDerivAt r1 dr1 v) (hr2 : HasDerivAt r2 dr2 v) (hr3 : HasDerivAt r3 dr3 v)
    (hr4 : HasDerivAt r4 dr4 v) (hs0 : HasDerivAt s0 ds0 v) (hs1 : HasDerivAt s1 ds1 v) (hs2 : HasDerivAt s2 ds2
    v) (hs3 : HasDerivAt s3 ds3 v) (hxm1mn : HasDerivAt xm1mn ((1 / 2) * dr0 + (-(1) / 2) * ds0) v) (pxm1mn : 0
    < xm1mn v) (hxm2mn : HasDerivAt xm2mn ((1 / 2) * dr0 + (1 / 2) * ds0) v) (pxm2mn : 0 < xm2mn v) (hxm1fe :
    HasDerivAt xm1fe ((1 / 2) * dr1 + (-(1) / 2) * ds1) v) (pxm1fe : 0 < xm1fe v) (hxm2fe : HasDerivAt xm2fe ((1
    / 2) * dr1 + (1 / 2) * ds1) v) (pxm2fe : 0 < xm2fe v) (hxm1co : HasDerivAt xm1co ((1 / 2) * dr2 + (1 / 2) *
    ds2) v) (pxm1co : 0 < xm1co v) (hxm2co : HasDerivAt xm2co ((1 / 2) * dr2 + (-(1) / 2) * ds2) v) (pxm2co : 0
    < xm2co v) (hxm1ni : HasDerivAt xm1ni ((1 / 2) * dr3 + (1 / 2) * ds3) v) (pxm1ni : 0 < xm1ni v) (hxm2ni :
    HasDerivAt xm2ni ((1 / 2) * dr3 + (-(1) / 2) * ds3) v) (pxm2ni : 0 < xm2ni v) (hxm2ca : HasDerivAt xm2ca (1
    * dr4) v) (pxm2ca : 0 < xm2ca v) (hxm1mg : HasDerivAt xm1mg ((-(1) / 2) * dr0 + (-(1) / 2) * dr1 + (-(1) /
    2) * dr2 + (-(1) / 2) * dr3 + (1 / 2) * ds0 + (1 / 2) * ds1 + (-(1) / 2) * ds2 + (-(1) / 2) * ds3) v)
    (pxm1mg : 0 < xm1mg v) (hxm2mg : HasDerivAt xm2mg ((-(1) / 2) * dr0 + (-(1) / 2) * dr1 + (-(1) / 2) * dr2 +
    (-(1) / 2) * dr3 + (-1) * dr4 + (-(1) / 2) * ds0 + (-(1) / 2) * ds1 + (1 / 2) * ds2 + (1 / 2) * ds3) v)
    (pxm2mg : 0 < xm2mg v) :
    HasDerivAt (fun v => DGDT (xm1mn v) (xm2mn v) (xm1fe v) (xm2fe v) (xm1co v) (xm2co v) (xm1ni v) (xm2ni v) (xm2ca v) (xm1mg v) (xm2mg v))
    (((D2GDR0DT (xm1mn v) (xm2mn v) (xm1mg v) (xm2mg v)) * dr0 + (D2GDR1DT (xm1fe v) (xm2fe v) (xm1mg v) (xm2mg
    v)) * dr1 + (D2GDR2DT (xm1co v) (xm2co v) (xm1mg v) (xm2mg v)) * dr2 + (D2GDR3DT (xm1ni v) (xm2ni v) (xm1mg
    v) (xm2mg v)) * dr3 + (D2GDR4DT (xm2ca v) (xm2mg v)) * dr4) + (D2GDT2 * dt + D2GDTDP * dp) + ((D2GDS0DT
    (xm1mn v) (xm2mn v) (xm1mg v) (xm2mg v)) * ds0 + (D2GDS1DT (xm1fe v) (xm2fe v) (xm1mg v) (xm2mg v)) * ds1 +
    (D2GDS2DT (xm1co v) (xm2co v) (xm1mg v) (xm2mg v)) * ds2 + (D2GDS3DT (xm1ni v) (xm2ni v) (xm1mg v) (xm2mg
    v)) * ds3)) v := by
  have nxm1mn := pxm1mn.ne'
  have nxm2mn := pxm2mn.ne'
  have nxm1fe := pxm1fe.ne'
  have nxm2fe := pxm2fe.ne'
  have nxm1co := pxm1co.ne'
  have nxm2co := pxm2co.ne'
  have nxm1ni := pxm1ni.ne'
  have nxm2ni := pxm2ni.ne'
  have nxm2ca := pxm2ca.ne'
  have nxm1mg := pxm1mg.ne'
  have nxm2mg := pxm2mg.ne'
  try simp only [S, DGDT, D2GDT2, D2GDTDP, D2GDR0DT, D2GDR1DT, D2GDR2DT, D2GDR3DT, D2GDR4DT, D2GDS0DT, D2GDS1DT, D2GDS2DT, D2GDS3DT, zero_mul, mul_zero, add_zero, zero_add, sub_zero]
  refine HasDerivAt.congr_deriv (by hdq) ?_
  try simp only [log4 nxm1mn nxm2mn nxm1mg nxm2mg, log4 nxm1fe nxm2fe nxm1mg nxm2mg, log4 nxm1co nxm2co nxm1mg nxm2mg, log4 nxm1ni nxm2ni nxm1mg nxm2mg, log2 nxm2ca nxm2mg, log4 nxm2mn nxm1mg nxm1mn nxm2mg, log4 nxm2fe nxm1mg nxm1fe nxm2mg, log4 nxm1co nxm2mg nxm2co nxm1mg, log4 nxm1ni nxm2mg nxm2ni nxm1mg]
  ring

lemma c_DGDP {t p r0 r1 r2 r3 r4 s0 s1 s2 s3 : ℝ → ℝ} {v dt dp dr0 dr1 dr2 dr3 dr4 ds0 ds1 ds2 ds3 : ℝ} (ht : HasDerivAt
    t dt v) (hp : HasDerivAt p dp v) (hr0 : HasDerivAt r0 dr0 v) (hr1 : HasDerivAt r1 dr1 v) (hr2 : HasDerivAt
    r2 dr2 v) (hr3 : HasDerivAt r3 dr3 v) (hr4 : HasDerivAt r4 dr4 v) (hs0 : HasDerivAt s0 ds0 v) (hs1 :
    HasDerivAt s1 ds1 v) (hs2 : HasDerivAt s2 ds2 v) (hs3 : HasDerivAt s3 ds3 v) :
    HasDerivAt (fun v => DGDP (r0 v) (r1 v) (r2 v) (r3 v) (r4 v) (s0 v) (s1 v) (s2 v) (s3 v))
    (((D2GDR0DP (r0 v) (r1 v) (r2 v) (r3 v) (r4 v) (s0 v) (s1 v) (s2 v) (s3 v)) * dr0 + (D2GDR1DP (r0 v) (r1 v)
    (r2 v) (r3 v) (r4 v) (s0 v) (s1 v) (s2 v) (s3 v)) * dr1 + (D2GDR2DP (r0 v) (r1 v) (r2 v) (r3 v) (r4 v) (s0
    v) (s1 v) (s2 v) (s3 v)) * dr2 + (D2GDR3DP (r0 v) (r1 v) (r2 v) (r3 v) (r4 v) (s0 v) (s1 v) (s2 v) (s3 v)) *
    dr3 + (D2GDR4DP (r0 v) (r1 v) (r2 v) (r3 v) (r4 v) (s0 v) (s1 v) (s2 v) (s3 v)) * dr4) + (D2GDTDP * dt +
    D2GDP2 * dp) + ((D2GDS0DP (r0 v) (r1 v) (r2 v) (r3 v) (r4 v) (s0 v) (s1 v) (s2 v) (s3 v)) * ds0 + (D2GDS1DP
    (r0 v) (r1 v) (r2 v) (r3 v) (r4 v) (s0 v) (s1 v) (s2 v) (s3 v)) * ds1 + (D2GDS2DP (r0 v) (r1 v) (r2 v) (r3
    v) (r4 v) (s0 v) (s1 v) (s2 v) (s3 v)) * ds2 + (D2GDS3DP (r0 v) (r1 v) (r2 v) (r3 v) (r4 v) (s0 v) (s1 v)
    (s2 v) (s3 v)) * ds3)) v := by
  try simp only [V, DGDP, D2GDTDP, D2GDP2, D2GDR0DP, D2GDR1DP, D2GDR2DP, D2GDR3DP, D2GDR4DP, D2GDS0DP, D2GDS1DP, D2GDS2DP, D2GDS3DP, zero_mul, mul_zero, add_zero, zero_add, sub_zero]
  refine HasDerivAt.congr_deriv (by hdq) ?_
  ring

lemma c_D2GDR0R0 {t p r0 r1 r2 r3 r4 s0 s1 s2 s3 xm1mn xm2mn xm1mg xm2mg : ℝ → ℝ} {v dt dp dr0 dr1 dr2 dr3 dr4 ds0 ds1 ds2
    ds3 : ℝ} (ht : HasDerivAt t dt v) (hp : HasDerivAt p dp v) (hr0 : HasDerivAt r0 dr0 v) (hr1 : HasDerivAt r1
    dr1 v) (hr2 : HasDerivAt r2 dr2 v) (hr3 : HasDerivAt r3 dr3 v) (hr4 : HasDerivAt r4 dr4 v) (hs0 : HasDerivAt
    s0 ds0 v) (hs1 : HasDerivAt s1 ds1 v) (hs2 : HasDerivAt s2 ds2 v) (hs3 : HasDerivAt s3 ds3 v) (hxm1mn :
    HasDerivAt xm1mn ((1 / 2) * dr0 + (-(1) / 2) * ds0) v) (pxm1mn : 0 < xm1mn v) (hxm2mn : HasDerivAt xm2mn ((1
    / 2) * dr0 + (1 / 2) * ds0) v) (pxm2mn : 0 < xm2mn v) (hxm1mg : HasDerivAt xm1mg ((-(1) / 2) * dr0 + (-(1) /
    2) * dr1 + (-(1) / 2) * dr2 + (-(1) / 2) * dr3 + (1 / 2) * ds0 + (1 / 2) * ds1 + (-(1) / 2) * ds2 + (-(1) /
    2) * ds3) v) (pxm1mg : 0 < xm1mg v) (hxm2mg : HasDerivAt xm2mg ((-(1) / 2) * dr0 + (-(1) / 2) * dr1 + (-(1)
    / 2) * dr2 + (-(1) / 2) * dr3 + (-1) * dr4 + (-(1) / 2) * ds0 + (-(1) / 2) * ds1 + (1 / 2) * ds2 + (1 / 2) *
    ds3) v) (pxm2mg : 0 < xm2mg v) :
    HasDerivAt (fun v => D2GDR0R0 (t v) (p v) (xm1mn v) (xm2mn v) (xm1mg v) (xm2mg v))
    (((D3GDR0R0R0 (t v) (xm1mn v) (xm2mn v) (xm1mg v) (xm2mg v)) * dr0 + (D3GDR0R0R1 (t v) (xm1mg v) (xm2mg v)) *
    dr1 + (D3GDR0R0R1 (t v) (xm1mg v) (xm2mg v)) * dr2 + (D3GDR0R0R1 (t v) (xm1mg v) (xm2mg v)) * dr3 +
    (D3GDR4R0R0 (t v) (xm2mg v)) * dr4) + ((D3GDR0R0DT (xm1mn v) (xm2mn v) (xm1mg v) (xm2mg v)) * dt +
    D3GDR0R0DP * dp) + ((D3GDR0R0S0 (t v) (xm1mn v) (xm2mn v) (xm1mg v) (xm2mg v)) * ds0 + (D3GDR0R0S1 (t v)
    (xm1mg v) (xm2mg v)) * ds1 + (D3GDR0R0S2 (t v) (xm1mg v) (xm2mg v)) * ds2 + (D3GDR0R0S3 (t v) (xm1mg v)
    (xm2mg v)) * ds3)) v := by
  have nxm1mn := pxm1mn.ne'
  have nxm2mn := pxm2mn.ne'
  have nxm1mg := pxm1mg.ne'
  have nxm2mg := pxm2mg.ne'
  try simp only [D2GDR0R0, D3GDR0R0DT, D3GDR0R0DP, D3GDR0R0R0, D3GDR0R0R1, D3GDR4R0R0, D3GDR0R0S0, D3GDR0R0S1, D3GDR0R0S2, D3GDR0R0S3, zero_mul, mul_zero, add_zero, zero_add, sub_zero]
  have hGR1R1 := k_GR1R1 hp
  refine HasDerivAt.congr_deriv (by hdq) ?_
  ring

lemma c_D2GDR0R1 {t p r0 r1 r2 r3 r4 s0 s1 s2 s3 xm1mg xm2mg : ℝ → ℝ} {v dt dp dr0 dr1 dr2 dr3 dr4 ds0 ds1 ds2 ds3 : ℝ} (ht :
    HasDerivAt t dt v) (hp : HasDerivAt p dp v) (hr0 : HasDerivAt r0 dr0 v) (hr1 : HasDerivAt r1 dr1 v) (hr2 :
    HasDerivAt r2 dr2 v) (hr3 : HasDerivAt r3 dr3 v) (hr4 : HasDerivAt r4 dr4 v) (hs0 : HasDerivAt s0 ds0 v)
    (hs1 : HasDerivAt s1 ds1 v) (hs2 : HasDerivAt s2 ds2 v) (hs3 : HasDerivAt s3 ds3 v) (hxm1mg : HasDerivAt
    xm1mg ((-(1) / 2) * dr0 + (-(1) / 2) * dr1 + (-(1) / 2) * dr2 + (-(1) / 2) * dr3 + (1 / 2) * ds0 + (1 / 2) *
    ds1 + (-(1) / 2) * ds2 + (-(1) / 2) * ds3) v) (pxm1mg : 0 < xm1mg v) (hxm2mg : HasDerivAt xm2mg ((-(1) / 2)
    * dr0 + (-(1) / 2) * dr1 + (-(1) / 2) * dr2 + (-(1) / 2) * dr3 + (-1) * dr4 + (-(1) / 2) * ds0 + (-(1) / 2)
    * ds1 + (1 / 2) * ds2 + (1 / 2) * ds3) v) (pxm2mg : 0 < xm2mg v) :
    HasDerivAt (fun v => D2GDR0R1 (t v) (p v) (xm1mg v) (xm2mg v))
    (((D3GDR0R0R1 (t v) (xm1mg v) (xm2mg v)) * dr0 + (D3GDR0R0R1 (t v) (xm1mg v) (xm2mg v)) * dr1 + (D3GDR0R0R1
    (t v) (xm1mg v) (xm2mg v)) * dr2 + (D3GDR0R0R1 (t v) (xm1mg v) (xm2mg v)) * dr3 + (D3GDR4R0R0 (t v) (xm2mg
    v)) * dr4) + ((D3GDR0R1DT (xm1mg v) (xm2mg v)) * dt + D3GDR0R1DP * dp) + ((D3GDR0R1S0 (t v) (xm1mg v) (xm2mg
    v)) * ds0 + (D3GDR0R1S1 (t v) (xm1mg v) (xm2mg v)) * ds1 + (D3GDR0R1S2 (t v) (xm1mg v) (xm2mg v)) * ds2 +
    (D3GDR0R1S3 (t v) (xm1mg v) (xm2mg v)) * ds3)) v := by
  have nxm1mg := pxm1mg.ne'
  have nxm2mg := pxm2mg.ne'
  try simp only [D2GDR0R1, D3GDR0R1DT, D3GDR0R1DP, D3GDR0R0R1, D3GDR4R0R0, D3GDR0R1S0, D3GDR0R1S1, D3GDR0R1S2, D3GDR0R1S3, zero_mul, mul_zero, add_zero, zero_add, sub_zero]
  have hGR1R2 := k_GR1R2 hp
  refine HasDerivAt.congr_deriv (by hdq) ?_
  ring

lemma c_D2GDR0R2 {t p r0 r1 r2 r3 r4 s0 s1 s2 s3 xm1mg xm2mg : ℝ → ℝ} {v dt dp dr0 dr1 dr2 dr3 dr4 ds0 ds1 ds2 ds3 : ℝ} (ht :
    HasDerivAt t dt v) (hp : HasDerivAt p dp v) (hr0 : HasDerivAt r0 dr0 v) (hr1 : HasDerivAt r1 dr1 v) (hr2 :
    HasDerivAt r2 dr2 v) (hr3 : HasDerivAt r3 dr3 v) (hr4 : HasDerivAt r4 dr4 v) (hs0 : HasDerivAt s0 ds0 v)
    (hs1 : HasDerivAt s1 ds1 v) (hs2 : HasDerivAt s2 ds2 v) (hs3 : HasDerivAt s3 ds3 v) (hxm1mg : HasDerivAt
    xm1mg ((-(1) / 2) * dr0 + (-(1) / 2) * dr1 + (-(1) / 2) * dr2 + (-(1) / 2) * dr3 + (1 / 2) * ds0 + (1 / 2) *
    ds1 + (-(1) / 2) * ds2 + (-(1) / 2) * ds3) v) (pxm1mg : 0 < xm1mg v) (hxm2mg : HasDerivAt xm2mg ((-(1) / 2)
    * dr0 + (-(1) / 2) * dr1 + (-(1) / 2) * dr2 + (-(1) / 2) * dr3 + (-1) * dr4 + (-(1) / 2) * ds0 + (-(1) / 2)
    * ds1 + (1 / 2) * ds2 + (1 / 2) * ds3) v) (pxm2mg : 0 < xm2mg v) :
    HasDerivAt (fun v => D2GDR0R2 (t v) (p v) (xm1mg v) (xm2mg v))
    (((D3GDR0R0R1 (t v) (xm1mg v) (xm2mg v)) * dr0 + (D3GDR0R0R1 (t v) (xm1mg v) (xm2mg v)) * dr1 + (D3GDR0R0R1
    (t v) (xm1mg v) (xm2mg v)) * dr2 + (D3GDR0R0R1 (t v) (xm1mg v) (xm2mg v)) * dr3 + (D3GDR4R0R0 (t v) (xm2mg
    v)) * dr4) + ((D3GDR0R2DT (xm1mg v) (xm2mg v)) * dt + D3GDR0R2DP * dp) + ((D3GDR0R2S0 (t v) (xm1mg v) (xm2mg
    v)) * ds0 + (D3GDR0R2S1 (t v) (xm1mg v) (xm2mg v)) * ds1 + (D3GDR0R2S2 (t v) (xm1mg v) (xm2mg v)) * ds2 +
    (D3GDR0R2S3 (t v) (xm1mg v) (xm2mg v)) * ds3)) v := by
  have nxm1mg := pxm1mg.ne'
  have nxm2mg := pxm2mg.ne'
  try simp only [D2GDR0R2, D3GDR0R2DT, D3GDR0R2DP, D3GDR0R0R1, D3GDR4R0R0, D3GDR0R2S0, D3GDR0R2S1, D3GDR0R2S2, D3GDR0R2S3, zero_mul, mul_zero, add_zero, zero_add, sub_zero]
  have hGR1R3 := k_GR1R3 hp
  refine HasDerivAt.congr_deriv (by hdq) ?_
  ring

lemma c_D2GDR0R3 {t p r0 r1 r2 r3 r4 s0 s1 s2 s3 xm1mg xm2mg : ℝ → ℝ} {v dt dp dr0 dr1 dr2 dr3 dr4 ds0 ds1 ds2 ds3 : ℝ} (ht :
    HasDerivAt t dt v) (hp : HasDerivAt p dp v) (hr0 : HasDerivAt r0 dr0 v) (hr1 : HasDerivAt r1 dr1 v) (hr2 :
    HasDerivAt r2 dr2 v) (hr3 : HasDerivAt r3 dr3 v) (hr4 : HasDerivAt r4 dr4 v) (hs0 : HasDerivAt s0 ds0 v)
    (hs1 : HasDerivAt s1 ds1 v) (hs2 : HasDerivAt s2 ds2 v) (hs3 : HasDerivAt s3 ds3 v) (hxm1mg : HasDerivAt
    xm1mg ((-(1) / 2) * dr0 + (-(1) / 2) * dr1 + (-(1) / 2) * dr2 + (-(1) / 2) * dr3 + (1 / 2) * ds0 + (1 / 2) *
    ds1 + (-(1) / 2) * ds2 + (-(1) / 2) * ds3) v) (pxm1mg : 0 < xm1mg v) (hxm2mg : HasDerivAt xm2mg ((-(1) / 2)
    * dr0 + (-(1) / 2) * dr1 + (-(1) / 2) * dr2 + (-(1) / 2) * dr3 + (-1) * dr4 + (-(1) / 2) * ds0 + (-(1) / 2)
    * ds1 + (1 / 2) * ds2 + (1 / 2) * ds3) v) (pxm2mg : 0 < xm2mg v) :
    HasDerivAt (fun v => D2GDR0R3 (t v) (p v) (xm1mg v) (xm2mg v))
    (((D3GDR0R0R1 (t v) (xm1mg v) (xm2mg v)) * dr0 + (D3GDR0R0R1 (t v) (xm1mg v) (xm2mg v)) * dr1 + (D3GDR0R0R1
    (t v) (xm1mg v) (xm2mg v)) * dr2 + (D3GDR0R0R1 (t v) (xm1mg v) (xm2mg v)) * dr3 + (D3GDR4R0R0 (t v) (xm2mg
    v)) * dr4) + ((D3GDR0R3DT (xm1mg v) (xm2mg v)) * dt + D3GDR0R3DP * dp) + ((D3GDR0R3S0 (t v) (xm1mg v) (xm2mg
    v)) * ds0 + (D3GDR0R3S1 (t v) (xm1mg v) (xm2mg v)) * ds1 + (D3GDR0R3S2 (t v) (xm1mg v) (xm2mg v)) * ds2 +
    (D3GDR0R3S3 (t v) (xm1mg v) (xm2mg v)) * ds3)) v := by
  have nxm1mg := pxm1mg.ne'
  have nxm2mg := pxm2mg.ne'
  try simp only [D2GDR0R3, D3GDR0R3DT, D3GDR0R3DP, D3GDR0R0R1, D3GDR4R0R0, D3GDR0R3S0, D3GDR0R3S1, D3GDR0R3S2, D3GDR0R3S3, zero_mul, mul_zero, add_zero, zero_add, sub_zero]
  have hGR1R4 := k_GR1R4 hp
  refine HasDerivAt.congr_deriv (by hdq) ?_
  ring

lemma c_D2GDR0R4 {t p r0 r1 r2 r3 r4 s0 s1 s2 s3 xm2mg : ℝ → ℝ} {v dt dp dr0 dr1 dr2 dr3 dr4 ds0 ds1 ds2 ds3 : ℝ} (ht :
    HasDerivAt t dt v) (hp : HasDerivAt p dp v) (hr0 : HasDerivAt r0 dr0 v) (hr1 : HasDerivAt r1 dr1 v) (hr2 :
    HasDerivAt r2 dr2 v) (hr3 : HasDerivAt r3 dr3 v) (hr4 : HasDerivAt r4 dr4 v) (hs0 : HasDerivAt s0 ds0 v)
    (hs1 : HasDerivAt s1 ds1 v) (hs2 : HasDerivAt s2 ds2 v) (hs3 : HasDerivAt s3 ds3 v) (hxm2mg : HasDerivAt
    xm2mg ((-(1) / 2) * dr0 + (-(1) / 2) * dr1 + (-(1) / 2) * dr2 + (-(1) / 2) * dr3 + (-1) * dr4 + (-(1) / 2) *
    ds0 + (-(1) / 2) * ds1 + (1 / 2) * ds2 + (1 / 2) * ds3) v) (pxm2mg : 0 < xm2mg v) :
    HasDerivAt (fun v => D2GDR0R4 (t v) (p v) (xm2mg v))
    (((D3GDR4R0R0 (t v) (xm2mg v)) * dr0 + (D3GDR4R0R0 (t v) (xm2mg v)) * dr1 + (D3GDR4R0R0 (t v) (xm2mg v)) *
    dr2 + (D3GDR4R0R0 (t v) (xm2mg v)) * dr3 + (D3GDR4R4R0 (t v) (xm2mg v)) * dr4) + ((D3GDR0R4DT (xm2mg v)) *
    dt + D3GDR0R4DP * dp) + ((D3GDR0R4S0 (t v) (xm2mg v)) * ds0 + (D3GDR0R4S1 (t v) (xm2mg v)) * ds1 +
    (D3GDR0R4S2 (t v) (xm2mg v)) * ds2 + (D3GDR0R4S3 (t v) (xm2mg v)) * ds3)) v := by
  have nxm2mg := pxm2mg.ne'
  try simp only [D2GDR0R4, D3GDR0R4DT, D3GDR0R4DP, D3GDR4R0R0, D3GDR4R4R0, D3GDR0R4S0, D3GDR0R4S1, D3GDR0R4S2, D3GDR0R4S3, zero_mul, mul_zero, add_zero, zero_add, sub_zero]
  have hGR1R5 := k_GR1R5 hp
  refine HasDerivAt.congr_deriv (by hdq) ?_
  ring

lemma c_D2GDR0S0 {t p r0 r1 r2 r3 r4 s0 s1 s2 s3 xm1mn xm2mn xm1mg xm2mg : ℝ → ℝ} {v dt dp dr0 dr1 dr2 dr3 dr4 ds0 ds1 ds2
    ds3 : ℝ} (ht : HasDerivAt t dt v) (hp : HasDerivAt p dp v) (hr0 : HasDerivAt r0 dr0 v) (hr1 : HasDerivAt r1
    dr1 v) (hr2 : HasDerivAt r2 dr2 v) (hr3 : HasDerivAt r3 dr3 v) (hr4 : HasDerivAt r4 dr4 v) (hs0 : HasDerivAt
    s0 ds0 v) (hs1 : HasDerivAt s1 ds1 v) (hs2 : HasDerivAt s2 ds2 v) (hs3 : HasDerivAt s3 ds3 v) (hxm1mn :
    HasDerivAt xm1mn ((1 / 2) * dr0 + (-(1) / 2) * ds0) v) (pxm1mn : 0 < xm1mn v) (hxm2mn : HasDerivAt xm2mn ((1
    / 2) * dr0 + (1 / 2) * ds0) v) (pxm2mn : 0 < xm2mn v) (hxm1mg : HasDerivAt xm1mg ((-(1) / 2) * dr0 + (-(1) /
    2) * dr1 + (-(1) / 2) * dr2 + (-(1) / 2) * dr3 + (1 / 2) * ds0 + (1 / 2) * ds1 + (-(1) / 2) * ds2 + (-(1) /
    2) * ds3) v) (pxm1mg : 0 < xm1mg v) (hxm2mg : HasDerivAt xm2mg ((-(1) / 2) * dr0 + (-(1) / 2) * dr1 + (-(1)
    / 2) * dr2 + (-(1) / 2) * dr3 + (-1) * dr4 + (-(1) / 2) * ds0 + (-(1) / 2) * ds1 + (1 / 2) * ds2 + (1 / 2) *
    ds3) v) (pxm2mg : 0 < xm2mg v) :
    HasDerivAt (fun v => D2GDR0S0 (t v) (p v) (xm1mn v) (xm2mn v) (xm1mg v) (xm2mg v))
    (((D3GDR0R0S0 (t v) (xm1mn v) (xm2mn v) (xm1mg v) (xm2mg v)) * dr0 + (D3GDR0R1S0 (t v) (xm1mg v) (xm2mg v)) *
    dr1 + (D3GDR0R2S0 (t v) (xm1mg v) (xm2mg v)) * dr2 + (D3GDR0R3S0 (t v) (xm1mg v) (xm2mg v)) * dr3 +
    (D3GDR0R4S0 (t v) (xm2mg v)) * dr4) + ((D3GDR0S0DT (xm1mn v) (xm2mn v) (xm1mg v) (xm2mg v)) * dt +
    D3GDR0S0DP * dp) + ((D3GDR0S0S0 (t v) (xm1mn v) (xm2mn v) (xm1mg v) (xm2mg v)) * ds0 + (D3GDR0S0S1 (t v)
    (xm1mg v) (xm2mg v)) * ds1 + (D3GDR0S0S2 (t v) (xm1mg v) (xm2mg v)) * ds2 + (D3GDR0S0S3 (t v) (xm1mg v)
    (xm2mg v)) * ds3)) v := by
  have nxm1mn := pxm1mn.ne'
  have nxm2mn := pxm2mn.ne'
  have nxm1mg := pxm1mg.ne'
  have nxm2mg := pxm2mg.ne'
  try simp only [D2GDR0S0, D3GDR0S0DT, D3GDR0S0DP, D3GDR0R0S0, D3GDR0R1S0, D3GDR0R2S0, D3GDR0R3S0, D3GDR0R4S0, D3GDR0S0S0, D3GDR0S0S1, D3GDR0S0S2, D3GDR0S0S3, zero_mul, mul_zero, add_zero, zero_add, sub_zero]
  have hGR1S1 := k_GR1S1 hp
  refine HasDerivAt.congr_deriv (by hdq) ?_
  ring

lemma c_D2GDR0S1 {t p r0 r1 r2 r3 r4 s0 s1 s2 s3 xm1mg xm2mg : ℝ → ℝ} {v dt dp dr0 dr1 dr2 dr3 dr4 ds0 ds1 ds2 ds3 : ℝ} (ht :
    HasDerivAt t dt v) (hp : HasDerivAt p dp v) (hr0 : HasDerivAt r0 dr0 v) (hr1 : HasDerivAt r1 dr1 v) (hr2 :
    HasDerivAt r2 dr2 v) (hr3 : HasDerivAt r3 dr3 v) (hr4 : HasDerivAt r4 dr4 v) (hs0 : HasDerivAt s0 ds0 v)
    (hs1 : HasDerivAt s1 ds1 v) (hs2 : HasDerivAt s2 ds2 v) (hs3 : HasDerivAt s3 ds3 v) (hxm1mg : HasDerivAt
    xm1mg ((-(1) / 2) * dr0 + (-(1) / 2) * dr1 + (-(1) / 2) * dr2 + (-(1) / 2) * dr3 + (1 / 2) * ds0 + (1 / 2) *
    ds1 + (-(1) / 2) * ds2 + (-(1) / 2) * ds3) v) (pxm1mg : 0 < xm1mg v) (hxm2mg : HasDerivAt xm2mg ((-(1) / 2)
    * dr0 + (-(1) / 2) * dr1 + (-(1) / 2) * dr2 + (-(1) / 2) * dr3 + (-1) * dr4 + (-(1) / 2) * ds0 + (-(1) / 2)
    * ds1 + (1 / 2) * ds2 + (1 / 2) * ds3) v) (pxm2mg : 0 < xm2mg v) :
    HasDerivAt (fun v => D2GDR0S1 (t v) (p v) (xm1mg v) (xm2mg v))
    (((D3GDR0R0S1 (t v) (xm1mg v) (xm2mg v)) * dr0 + (D3GDR0R1S1 (t v) (xm1mg v) (xm2mg v)) * dr1 + (D3GDR0R2S1
    (t v) (xm1mg v) (xm2mg v)) * dr2 + (D3GDR0R3S1 (t v) (xm1mg v) (xm2mg v)) * dr3 + (D3GDR0R4S1 (t v) (xm2mg
    v)) * dr4) + ((D3GDR0S1DT (xm1mg v) (xm2mg v)) * dt + D3GDR0S1DP * dp) + ((D3GDR0S0S1 (t v) (xm1mg v) (xm2mg
    v)) * ds0 + (D3GDR0S1S1 (t v) (xm1mg v) (xm2mg v)) * ds1 + (D3GDR0S1S2 (t v) (xm1mg v) (xm2mg v)) * ds2 +
    (D3GDR0S1S3 (t v) (xm1mg v) (xm2mg v)) * ds3)) v := by
  have nxm1mg := pxm1mg.ne'
  have nxm2mg := pxm2mg.ne'
  try simp only [D2GDR0S1, D3GDR0S1DT, D3GDR0S1DP, D3GDR0R0S1, D3GDR0R1S1, D3GDR0R2S1, D3GDR0R3S1, D3GDR0R4S1, D3GDR0S0S1, D3GDR0S1S1, D3GDR0S1S2, D3GDR0S1S3, zero_mul, mul_zero, add_zero, zero_add, sub_zero]
  have hGR1S2 := k_GR1S2 hp
  refine HasDerivAt.congr_deriv (by hdq) ?_
  ring

lemma c_D2GDR0S2 {t p r0 r1 r2 r3 r4 s0 s1 s2 s3 xm1mg xm2mg : ℝ → ℝ} {v dt dp dr0 dr1 dr2 dr3 dr4 ds0 ds1 ds2 ds3 : ℝ} (ht :
    HasDerivAt t dt v) (hp : HasDerivAt p dp v) (hr0 : HasDerivAt r0 dr0 v) (hr1 : HasDerivAt r1 dr1 v) (hr2 :
    HasDerivAt r2 dr2 v) (hr3 : HasDerivAt r3 dr3 v) (hr4 : HasDerivAt r4 dr4 v) (hs0 : HasDerivAt s0 ds0 v)
    (hs1 : HasDerivAt s1 ds1 v) (hs2 : HasDerivAt s2 ds2 v) (hs3 : HasDerivAt s3 ds3 v) (hxm1mg : HasDerivAt
    xm1mg ((-(1) / 2) * dr0 + (-(1) / 2) * dr1 + (-(1) / 2) * dr2 + (-(1) / 2) * dr3 + (1 / 2) * ds0 + (1 / 2) *
    ds1 + (-(1) / 2) * ds2 + (-(1) / 2) * ds3) v) (pxm1mg : 0 < xm1mg v) (hxm2mg : HasDerivAt xm2mg ((-(1) / 2)
    * dr0 + (-(1) / 2) * dr1 + (-(1) / 2) * dr2 + (-(1) / 2) * dr3 + (-1) * dr4 + (-(1) / 2) * ds0 + (-(1) / 2)
    * ds1 + (1 / 2) * ds2 + (1 / 2) * ds3) v) (pxm2mg : 0 < xm2mg v) :
    HasDerivAt (fun v => D2GDR0S2 (t v) (p v) (xm1mg v) (xm2mg v))
    (((D3GDR0R0S2 (t v) (xm1mg v) (xm2mg v)) * dr0 + (D3GDR0R1S2 (t v) (xm1mg v) (xm2mg v)) * dr1 + (D3GDR0R2S2
    (t v) (xm1mg v) (xm2mg v)) * dr2 + (D3GDR0R3S2 (t v) (xm1mg v) (xm2mg v)) * dr3 + (D3GDR0R4S2 (t v) (xm2mg
    v)) * dr4) + ((D3GDR0S2DT (xm1mg v) (xm2mg v)) * dt + D3GDR0S2DP * dp) + ((D3GDR0S0S2 (t v) (xm1mg v) (xm2mg
    v)) * ds0 + (D3GDR0S1S2 (t v) (xm1mg v) (xm2mg v)) * ds1 + (D3GDR0S2S2 (t v) (xm1mg v) (xm2mg v)) * ds2 +
    (D3GDR0S2S3 (t v) (xm1mg v) (xm2mg v)) * ds3)) v := by
  have nxm1mg := pxm1mg.ne'
  have nxm2mg := pxm2mg.ne'
  try simp only [D2GDR0S2, D3GDR0S2DT, D3GDR0S2DP, D3GDR0R0S2, D3GDR0R1S2, D3GDR0R2S2, D3GDR0R3S2, D3GDR0R4S2, D3GDR0S0S2, D3GDR0S1S2, D3GDR0S2S2, D3GDR0S2S3, zero_mul, mul_zero, add_zero, zero_add, sub_zero]
  have hGR1S3 := k_GR1S3 hp
  refine HasDerivAt.congr_deriv (by hdq) ?_
  ring

lemma c_D2GDR0S3 {t p r0 r1 r2 r3 r4 s0 s1 s2 s3 xm1mg xm2mg : ℝ → ℝ} {v dt dp dr0 dr1 dr2 dr3 dr4 ds0 ds1 ds2 ds3 : ℝ} (ht :
    HasDerivAt t dt v) (hp : HasDerivAt p dp v) (hr0 : HasDerivAt r0 dr0 v) (hr1 : HasDerivAt r1 dr1 v) (hr2 :
    HasDerivAt r2 dr2 v) (hr3 : HasDerivAt r3 dr3 v) (hr4 : HasDerivAt r4 dr4 v) (hs0 : HasDerivAt s0 ds0 v)
    (hs1 : HasDerivAt s1 ds1 v) (hs2 : HasDerivAt s2 ds2 v) (hs3 : HasDerivAt s3 ds3 v) (hxm1mg : HasDerivAt
    xm1mg ((-(1) / 2) * dr0 + (-(1) / 2) * dr1 + (-(1) / 2) * dr2 + (-(1) / 2) * dr3 + (1 / 2) * ds0 + (1 / 2) *
    ds1 + (-(1) / 2) * ds2 + (-(1) / 2) * ds3) v) (pxm1mg : 0 < xm1mg v) (hxm2mg : HasDerivAt xm2mg ((-(1) / 2)
    * dr0 + (-(1) / 2) * dr1 + (-(1) / 2) * dr2 + (-(1) / 2) * dr3 + (-1) * dr4 + (-(1) / 2) * ds0 + (-(1) / 2)
    * ds1 + (1 / 2) * ds2 + (1 / 2) * ds3) v) (pxm2mg : 0 < xm2mg v) :
    HasDerivAt (fun v => D2GDR0S3 (t v) (p v) (xm1mg v) (xm2mg v))
    (((D3GDR0R0S3 (t v) (xm1mg v) (xm2mg v)) * dr0 + (D3GDR0R1S3 (t v) (xm1mg v) (xm2mg v)) * dr1 + (D3GDR0R2S3
    (t v) (xm1mg v) (xm2mg v)) * dr2 + (D3GDR0R3S3 (t v) (xm1mg v) (xm2mg v)) * dr3 + (D3GDR0R4S3 (t v) (xm2mg
    v)) * dr4) + ((D3GDR0S3DT (xm1mg v) (xm2mg v)) * dt + D3GDR0S3DP * dp) + ((D3GDR0S0S3 (t v) (xm1mg v) (xm2mg
    v)) * ds0 + (D3GDR0S1S3 (t v) (xm1mg v) (xm2mg v)) * ds1 + (D3GDR0S2S3 (t v) (xm1mg v) (xm2mg v)) * ds2 +
    (D3GDR0S3S3 (t v) (xm1mg v) (xm2mg v)) * ds3)) v := by
  have nxm1mg := pxm1mg.ne'
  have nxm2mg := pxm2mg.ne'
  try simp only [D2GDR0S3, D3GDR0S3DT, D3GDR0S3DP, D3GDR0R0S3, D3GDR0R1S3, D3GDR0R2S3, D3GDR0R3S3, D3GDR0R4S3, D3GDR0S0S3, D3GDR0S1S3, D3GDR0S2S3, D3GDR0S3S3, zero_mul, mul_zero, add_zero, zero_add, sub_zero]
  have hGR1S4 := k_GR1S4 hp
  refine HasDerivAt.congr_deriv (by hdq) ?_
  ring

lemma c_D2GDR0DT {t p r0 r1 r2 r3 r4 s0 s1 s2 s3 xm1mn xm2mn xm1mg xm2mg : ℝ → ℝ} {v dt dp dr0 dr1 dr2 dr3 dr4 ds0 ds1 ds2
    ds3 : ℝ} (ht : HasDerivAt t dt v) (hp : HasDerivAt p dp v) (hr0 : HasDerivAt r0 dr0 v) (hr1 : HasDerivAt r1
    dr1 v) (hr2 : HasDerivAt r2 dr2 v) (hr3 : HasDerivAt r3 dr3 v) (hr4 : HasDerivAt r4 dr4 v) (hs0 : HasDerivAt
    s0 ds0 v) (hs1 : HasDerivAt s1 ds1 v) (hs2 : HasDerivAt s2 ds2 v) (hs3 : HasDerivAt s3 ds3 v) (hxm1mn :
    HasDerivAt xm1mn ((1 / 2) * dr0 + (-(1) / 2) * ds0) v) (pxm1mn : 0 < xm1mn v) (hxm2mn : HasDerivAt xm2mn ((1
    / 2) * dr0 + (1 / 2) * ds0) v) (pxm2mn : 0 < xm2mn v) (hxm1mg : HasDerivAt xm1mg ((-(1) / 2) * dr0 + (-(1) /
    2) * dr1 + (-(1) / 2) * dr2 + (-(1) / 2) * dr3 + (1 / 2) * ds0 + (1 / 2) * ds1 + (-(1) / 2) * ds2 + (-(1) /
    2) * ds3) v) (pxm1mg : 0 < xm1mg v) (hxm2mg : HasDerivAt xm2mg ((-(1) / 2) * dr0 + (-(1) / 2) * dr1 + (-(1)
    / 2) * dr2 + (-(1) / 2) * dr3 + (-1) * dr4 + (-(1) / 2) * ds0 + (-(1) / 2) * ds1 + (1 / 2) * ds2 + (1 / 2) *
    ds3) v) (pxm2mg : 0 < xm2mg v) :
    HasDerivAt (fun v => D2GDR0DT (xm1mn v) (xm2mn v) (xm1mg v) (xm2mg v))
    (((D3GDR0R0DT (xm1mn v) (xm2mn v) (xm1mg v) (xm2mg v)) * dr0 + (D3GDR0R1DT (xm1mg v) (xm2mg v)) * dr1 +
    (D3GDR0R2DT (xm1mg v) (xm2mg v)) * dr2 + (D3GDR0R3DT (xm1mg v) (xm2mg v)) * dr3 + (D3GDR0R4DT (xm2mg v)) *
    dr4) + (D3GDR0DT2 * dt + D3GDR0DTDP * dp) + ((D3GDR0S0DT (xm1mn v) (xm2mn v) (xm1mg v) (xm2mg v)) * ds0 +
    (D3GDR0S1DT (xm1mg v) (xm2mg v)) * ds1 + (D3GDR0S2DT (xm1mg v) (xm2mg v)) * ds2 + (D3GDR0S3DT (xm1mg v)
    (xm2mg v)) * ds3)) v := by
  have nxm1mn := pxm1mn.ne'
  have nxm2mn := pxm2mn.ne'
  have nxm1mg := pxm1mg.ne'
  have nxm2mg := pxm2mg.ne'
  try simp only [D2GDR0DT, D3GDR0DT2, D3GDR0DTDP, D3GDR0R0DT, D3GDR0R1DT, D3GDR0R2DT, D3GDR0R3DT, D3GDR0R4DT, D3GDR0S0DT, D3GDR0S1DT, D3GDR0S2DT, D3GDR0S3DT, zero_mul, mul_zero, add_zero, zero_add, sub_zero]
  refine HasDerivAt.congr_deriv (by hdq) ?_
  try simp only [log4 nxm1mn nxm2mn nxm1mg nxm2mg]
  ring

lemma c_D2GDR0DP {t p r0 r1 r2 r3 r4 s0 s1 s2 s3 : ℝ → ℝ} {v dt dp dr0 dr1 dr2 dr3 dr4 ds0 ds1 ds2 ds3 : ℝ} (ht : HasDerivAt
    t dt v) (hp : HasDerivAt p dp v) (hr0 : HasDerivAt r0 dr0 v) (hr1 : HasDerivAt r1 dr1 v) (hr2 : HasDerivAt
    r2 dr2 v) (hr3 : HasDerivAt r3 dr3 v) (hr4 : HasDerivAt r4 dr4 v) (hs0 : HasDerivAt s0 ds0 v) (hs1 :
    HasDerivAt s1 ds1 v) (hs2 : HasDerivAt s2 ds2 v) (hs3 : HasDerivAt s3 ds3 v) :
    HasDerivAt (fun v => D2GDR0DP (r0 v) (r1 v) (r2 v) (r3 v) (r4 v) (s0 v) (s1 v) (s2 v) (s3 v))
    ((D3GDR0R0DP * dr0 + D3GDR0R1DP * dr1 + D3GDR0R2DP * dr2 + D3GDR0R3DP * dr3 + D3GDR0R4DP * dr4) + (D3GDR0DTDP
    * dt + D3GDR0DP2 * dp) + (D3GDR0S0DP * ds0 + D3GDR0S1DP * ds1 + D3GDR0S2DP * ds2 + D3GDR0S3DP * ds3)) v := by
  try simp only [D2GDR0DP, D3GDR0DTDP, D3GDR0DP2, D3GDR0R0DP, D3GDR0R1DP, D3GDR0R2DP, D3GDR0R3DP, D3GDR0R4DP, D3GDR0S0DP, D3GDR0S1DP, D3GDR0S2DP, D3GDR0S3DP, zero_mul, mul_zero, add_zero, zero_add, sub_zero]
  refine HasDerivAt.congr_deriv (by hdq) ?_
  ring

lemma c_D2GDR1R1 {t p r0 r1 r2 r3 r4 s0 s1 s2 s3 xm1fe xm2fe xm1mg xm2mg : ℝ → ℝ} {v dt dp dr0 dr1 dr2 dr3 dr4 ds0 ds1 ds2
    ds3 : ℝ} (ht : HasDerivAt t dt v) (hp : HasDerivAt p dp v) (hr0 : HasDerivAt r0 dr0 v) (hr1 : HasDerivAt r1
    dr1 v) (hr2 : HasDerivAt r2 dr2 v) (hr3 : HasDerivAt r3 dr3 v) (hr4 : HasDerivAt r4 dr4 v) (hs0 : HasDerivAt
    s0 ds0 v) (hs1 : HasDerivAt s1 ds1 v) (hs2 : HasDerivAt s2 ds2 v) (hs3 : HasDerivAt s3 ds3 v) (hxm1fe :
    HasDerivAt xm1fe ((1 / 2) * dr1 + (-(1) / 2) * ds1) v) (pxm1fe : 0 < xm1fe v) (hxm2fe : HasDerivAt xm2fe ((1
    / 2) * dr1 + (1 / 2) * ds1) v) (pxm2fe : 0 < xm2fe v) (hxm1mg : HasDerivAt xm1mg ((-(1) / 2) * dr0 + (-(1) /
    2) * dr1 + (-(1) / 2) * dr2 + (-(1) / 2) * dr3 + (1 / 2) * ds0 + (1 / 2) * ds1 + (-(1) / 2) * ds2 + (-(1) /
    2) * ds3) v) (pxm1mg : 0 < xm1mg v) (hxm2mg : HasDerivAt xm2mg ((-(1) / 2) * dr0 + (-(1) / 2) * dr1 + (-(1)
    / 2) * dr2 + (-(1) / 2) * dr3 + (-1) * dr4 + (-(1) / 2) * ds0 + (-(1) / 2) * ds1 + (1 / 2) * ds2 + (1 / 2) *
    ds3) v) (pxm2mg : 0 < xm2mg v) :
    HasDerivAt (fun v => D2GDR1R1 (t v) (p v) (xm1fe v) (xm2fe v) (xm1mg v) (xm2mg v))
    (((D3GDR0R0R1 (t v) (xm1mg v) (xm2mg v)) * dr0 + (D3GDR1R1R1 (t v) (xm1fe v) (xm2fe v) (xm1mg v) (xm2mg v)) *
    dr1 + (D3GDR0R0R1 (t v) (xm1mg v) (xm2mg v)) * dr2 + (D3GDR0R0R1 (t v) (xm1mg v) (xm2mg v)) * dr3 +
    (D3GDR4R0R0 (t v) (xm2mg v)) * dr4) + ((D3GDR1R1DT (xm1fe v) (xm2fe v) (xm1mg v) (xm2mg v)) * dt +
    D3GDR1R1DP * dp) + ((D3GDR1R1S0 (t v) (xm1mg v) (xm2mg v)) * ds0 + (D3GDR1R1S1 (t v) (xm1fe v) (xm2fe v)
    (xm1mg v) (xm2mg v)) * ds1 + (D3GDR1R1S2 (t v) (xm1mg v) (xm2mg v)) * ds2 + (D3GDR1R1S3 (t v) (xm1mg v)
    (xm2mg v)) * ds3)) v := by
  have nxm1fe := pxm1fe.ne'
  have nxm2fe := pxm2fe.ne'
  have nxm1mg := pxm1mg.ne'
  have nxm2mg := pxm2mg.ne'
  try simp only [D2GDR1R1, D3GDR1R1DT, D3GDR1R1DP, D3GDR0R0R1, D3GDR1R1R1, D3GDR4R0R0, D3GDR1R1S0, D3GDR1R1S1, D3GDR1R1S2, D3GDR1R1S3, zero_mul, mul_zero, add_zero, zero_add, sub_zero]
  have hGR2R2 := k_GR2R2 hp
  refine HasDerivAt.congr_deriv (by hdq) ?_
  ring

lemma c_D2GDR1R2 {t p r0 r1 r2 r3 r4 s0 s1 s2 s3 xm1mg xm2mg : ℝ → ℝ} {v dt dp dr0 dr1 dr2 dr3 dr4 ds0 ds1 ds2 ds3 : ℝ} (ht :
    HasDerivAt t dt v) (hp : HasDerivAt p dp v) (hr0 : HasDerivAt r0 dr0 v) (hr1 : HasDerivAt r1 dr1 v) (hr2 :
    HasDerivAt r2 dr2 v) (hr3 : HasDerivAt r3 dr3 v) (hr4 : HasDerivAt r4 dr4 v) (hs0 : HasDerivAt s0 ds0 v)
    (hs1 : HasDerivAt s1 ds1 v) (hs2 : HasDerivAt s2 ds2 v) (hs3 : HasDerivAt s3 ds3 v) (hxm1mg : HasDerivAt
    xm1mg ((-(1) / 2) * dr0 + (-(1) / 2) * dr1 + (-(1) / 2) * dr2 + (-(1) / 2) * dr3 + (1 / 2) * ds0 + (1 / 2) *
    ds1 + (-(1) / 2) * ds2 + (-(1) / 2) * ds3) v) (pxm1mg : 0 < xm1mg v) (hxm2mg : HasDerivAt xm2mg ((-(1) / 2)
    * dr0 + (-(1) / 2) * dr1 + (-(1) / 2) * dr2 + (-(1) / 2) * dr3 + (-1) * dr4 + (-(1) / 2) * ds0 + (-(1) / 2)
    * ds1 + (1 / 2) * ds2 + (1 / 2) * ds3) v) (pxm2mg : 0 < xm2mg v) :
    HasDerivAt (fun v => D2GDR1R2 (t v) (p v) (xm1mg v) (xm2mg v))
    (((D3GDR0R0R1 (t v) (xm1mg v) (xm2mg v)) * dr0 + (D3GDR0R0R1 (t v) (xm1mg v) (xm2mg v)) * dr1 + (D3GDR0R0R1
    (t v) (xm1mg v) (xm2mg v)) * dr2 + (D3GDR0R0R1 (t v) (xm1mg v) (xm2mg v)) * dr3 + (D3GDR4R0R0 (t v) (xm2mg
    v)) * dr4) + ((D3GDR1R2DT (xm1mg v) (xm2mg v)) * dt + D3GDR1R2DP * dp) + ((D3GDR1R2S0 (t v) (xm1mg v) (xm2mg
    v)) * ds0 + (D3GDR1R2S1 (t v) (xm1mg v) (xm2mg v)) * ds1 + (D3GDR1R2S2 (t v) (xm1mg v) (xm2mg v)) * ds2 +
    (D3GDR1R2S3 (t v) (xm1mg v) (xm2mg v)) * ds3)) v := by
  have nxm1mg := pxm1mg.ne'
  have nxm2mg := pxm2mg.ne'
  try simp only [D2GDR1R2, D3GDR1R2DT, D3GDR1R2DP, D3GDR0R0R1, D3GDR4R0R0, D3GDR1R2S0, D3GDR1R2S1, D3GDR1R2S2, D3GDR1R2S3, zero_mul, mul_zero, add_zero, zero_add, sub_zero]
  have hGR2R3 := k_GR2R3 hp
  refine HasDerivAt.congr_deriv (by hdq) ?_
  ring

lemma c_D2GDR1R3 {t p r0 r1 r2 r3 r4 s0 s1 s2 s3 xm1mg xm2mg : ℝ → ℝ} {v dt dp dr0 dr1 dr2 dr3 dr4 ds0 ds1 ds2 ds3 : ℝ} (ht :
    HasDerivAt t dt v) (hp : HasDerivAt p dp v) (hr0 : HasDerivAt r0 dr0 v) (hr1 : HasDerivAt r1 dr1 v) (hr2 :
    HasDerivAt r2 dr2 v) (hr3 : HasDerivAt r3 dr3 v) (hr4 : HasDerivAt r4 dr4 v) (hs0 : HasDerivAt s0 ds0 v)
    (hs1 : HasDerivAt s1 ds1 v) (hs2 : HasDerivAt s2 ds2 v) (hs3 : HasDerivAt s3 ds3 v) (hxm1mg : HasDerivAt
    xm1mg ((-(1) / 2) * dr0 + (-(1) / 2) * dr1 + (-(1) / 2) * dr2 + (-(1) / 2) * dr3 + (1 / 2) * ds0 + (1 / 2) *
    ds1 + (-(1) / 2) * ds2 + (-(1) / 2) * ds3) v) (pxm1mg : 0 < xm1mg v) (hxm2mg : HasDerivAt xm2mg ((-(1) / 2)
    * dr0 + (-(1) / 2) * dr1 + (-(1) / 2) * dr2 + (-(1) / 2) * dr3 + (-1) * dr4 + (-(1) / 2) * ds0 + (-(1) / 2)
    * ds1 + (1 / 2) * ds2 + (1 / 2) * ds3) v) (pxm2mg : 0 < xm2mg v) :
    HasDerivAt (fun v => D2GDR1R3 (t v) (p v) (xm1mg v) (xm2mg v))
    (((D3GDR0R0R1 (t v) (xm1mg v) (xm2mg v)) * dr0 + (D3GDR0R0R1 (t v) (xm1mg v) (xm2mg v)) * dr1 + (D3GDR0R0R1
    (t v) (xm1mg v) (xm2mg v)) * dr2 + (D3GDR0R0R1 (t v) (xm1mg v) (xm2mg v)) * dr3 + (D3GDR4R0R0 (t v) (xm2mg
    v)) * dr4) + ((D3GDR1R3DT (xm1mg v) (xm2mg v)) * dt + D3GDR1R3DP * dp) + ((D3GDR1R3S0 (t v) (xm1mg v) (xm2mg
    v)) * ds0 + (D3GDR1R3S1 (t v) (xm1mg v) (xm2mg v)) * ds1 + (D3GDR1R3S2 (t v) (xm1mg v) (xm2mg v)) * ds2 +
    (D3GDR1R3S3 (t v) (xm1mg v) (xm2mg v)) * ds3)) v := by
  have nxm1mg := pxm1mg.ne'
  have nxm2mg := pxm2mg.ne'
  try simp only [D2GDR1R3, D3GDR1R3DT, D3GDR1R3DP, D3GDR0R0R1, D3GDR4R0R0, D3GDR1R3S0, D3GDR1R3S1, D3GDR1R3S2, D3GDR1R3S3, zero_mul, mul_zero, add_zero, zero_add, sub_zero]
  have hGR2R4 := k_GR2R4 hp
  refine HasDerivAt.congr_deriv (by hdq) ?_
  ring

lemma c_D2GDR1R4 {t p r0 r1 r2 r3 r4 s0 s1 s2 s3 xm2mg : ℝ → ℝ} {v dt dp dr0 dr1 dr2 dr3 dr4 ds0 ds1 ds2 ds3 : ℝ} (ht :
    HasDerivAt t dt v) (hp : HasDerivAt p dp v) (hr0 : HasDerivAt r0 dr0 v) (hr1 : HasDerivAt r1 dr1 v) (hr2 :
    HasDerivAt r2 dr2 v) (hr3 : HasDerivAt r3 dr3 v) (hr4 : HasDerivAt r4 dr4 v) (hs0 : HasDerivAt s0 ds0 v)
    (hs1 : HasDerivAt s1 ds1 v) (hs2 : HasDerivAt s2 ds2 v) (hs3 : HasDerivAt s3 ds3 v) (hxm2mg : HasDerivAt
    xm2mg ((-(1) / 2) * dr0 + (-(1) / 2) * dr1 + (-(1) / 2) * dr2 + (-(1) / 2) * dr3 + (-1) * dr4 + (-(1) / 2) *
    ds0 + (-(1) / 2) * ds1 + (1 / 2) * ds2 + (1 / 2) * ds3) v) (pxm2mg : 0 < xm2mg v) :
    HasDerivAt (fun v => D2GDR1R4 (t v) (p v) (xm2mg v))
    (((D3GDR4R0R0 (t v) (xm2mg v)) * dr0 + (D3GDR4R0R0 (t v) (xm2mg v)) * dr1 + (D3GDR4R0R0 (t v) (xm2mg v)) *
    dr2 + (D3GDR4R0R0 (t v) (xm2mg v)) * dr3 + (D3GDR4R4R0 (t v) (xm2mg v)) * dr4) + ((D3GDR1R4DT (xm2mg v)) *
    dt + D3GDR1R4DP * dp) + ((D3GDR1R4S0 (t v) (xm2mg v)) * ds0 + (D3GDR1R4S1 (t v) (xm2mg v)) * ds1 +
    (D3GDR1R4S2 (t v) (xm2mg v)) * ds2 + (D3GDR1R4S3 (t v) (xm2mg v)) * ds3)) v := by
  have nxm2mg := pxm2mg.ne'
  try simp only [D2GDR1R4, D3GDR1R4DT, D3GDR1R4DP, D3GDR4R0R0, D3GDR4R4R0, D3GDR1R4S0, D3GDR1R4S1, D3GDR1R4S2, D3GDR1R4S3, zero_mul, mul_zero, add_zero, zero_add, sub_zero]
  have hGR2R5 := k_GR2R5 hp
  refine HasDerivAt.congr_deriv (by hdq) ?_
  ring

lemma c_D2GDR1S0 {t p r0 r1 r2 r3 r4 s0 s1 s2 s3 xm1mg xm2mg : ℝ → ℝ} {v dt dp dr0 dr1 dr2 dr3 dr4 ds0 ds1 ds2 ds3 : ℝ} (ht :
    HasDerivAt t dt v) (hp : HasDerivAt p dp v) (hr0 : HasDerivAt r0 dr0 v) (hr1 : HasDerivAt r1 dr1 v) (hr2 :
    HasDerivAt r2 dr2 v) (hr3 : HasDerivAt r3 dr3 v) (hr4 : HasDerivAt r4 dr4 v) (hs0 : HasDerivAt s0 ds0 v)
    (hs1 : HasDerivAt s1 ds1 v) (hs2 : HasDerivAt s2 ds2 v) (hs3 : HasDerivAt s3 ds3 v) (hxm1mg : HasDerivAt
    xm1mg ((-(1) / 2) * dr0 + (-(1) / 2) * dr1 + (-(1) / 2) * dr2 + (-(1) / 2) * dr3 + (1 / 2) * ds0 + (1 / 2) *
    ds1 + (-(1) / 2) * ds2 + (-(1) / 2) * ds3) v) (pxm1mg : 0 < xm1mg v) (hxm2mg : HasDerivAt xm2mg ((-(1) / 2)
    * dr0 + (-(1) / 2) * dr1 + (-(1) / 2) * dr2 + (-(1) / 2) * dr3 + (-1) * dr4 + (-(1) / 2) * ds0 + (-(1) / 2)
    * ds1 + (1 / 2) * ds2 + (1 / 2) * ds3) v) (pxm2mg : 0 < xm2mg v) :
    HasDerivAt (fun v => D2GDR1S0 (t v) (p v) (xm1mg v) (xm2mg v))
    (((D3GDR0R1S0 (t v) (xm1mg v) (xm2mg v)) * dr0 + (D3GDR1R1S0 (t v) (xm1mg v) (xm2mg v)) * dr1 + (D3GDR1R2S0
    (t v) (xm1mg v) (xm2mg v)) * dr2 + (D3GDR1R3S0 (t v) (xm1mg v) (xm2mg v)) * dr3 + (D3GDR1R4S0 (t v) (xm2mg
    v)) * dr4) + ((D3GDR1S0DT (xm1mg v) (xm2mg v)) * dt + D3GDR1S0DP * dp) + ((D3GDR1S0S0 (t v) (xm1mg v) (xm2mg
    v)) * ds0 + (D3GDR1S0S1 (t v) (xm1mg v) (xm2mg v)) * ds1 + (D3GDR1S0S2 (t v) (xm1mg v) (xm2mg v)) * ds2 +
    (D3GDR1S0S3 (t v) (xm1mg v) (xm2mg v)) * ds3)) v := by
  have nxm1mg := pxm1mg.ne'
  have nxm2mg := pxm2mg.ne'
  try simp only [D2GDR1S0, D3GDR1S0DT, D3GDR1S0DP, D3GDR0R1S0, D3GDR1R1S0, D3GDR1R2S0, D3GDR1R3S0, D3GDR1R4S0, D3GDR1S0S0, D3GDR1S0S1, D3GDR1S0S2, D3GDR1S0S3, zero_mul, mul_zero, add_zero, zero_add, sub_zero]
  have hGR2S1 := k_GR2S1 hp
  refine HasDerivAt.congr_deriv (by hdq) ?_
  ring

lemma c_D2GDR1S1 {t p r0 r1 r2 r3 r4 s0 s1 s2 s3 xm1fe xm2fe xm1mg xm2mg : ℝ → ℝ} {v dt dp dr0 dr1 dr2 dr3 dr4 ds0 ds1 ds2
    ds3 : ℝ} (ht : HasDerivAt t dt v) (hp : HasDerivAt p dp v) (hr0 : HasDerivAt r0 dr0 v) (hr1 : HasDerivAt r1
    dr1 v) (hr2 : HasDerivAt r2 dr2 v) (hr3 : HasDerivAt r3 dr3 v) (hr4 : HasDerivAt r4 dr4 v) (hs0 : HasDerivAt
    s0 ds0 v) (hs1 : HasDerivAt s1 ds1 v) (hs2 : HasDerivAt s2 ds2 v) (hs3 : HasDerivAt s3 ds3 v) (hxm1fe :
    HasDerivAt xm1fe ((1 / 2) * dr1 + (-(1) / 2) * ds1) v) (pxm1fe : 0 < xm1fe v) (hxm2fe : HasDerivAt xm2fe ((1
    / 2) * dr1 + (1 / 2) * ds1) v) (pxm2fe : 0 < xm2fe v) (hxm1mg : HasDerivAt xm1mg ((-(1) / 2) * dr0 + (-(1) /
    2) * dr1 + (-(1) / 2) * dr2 + (-(1) / 2) * dr3 + (1 / 2) * ds0 + (1 / 2) * ds1 + (-(1) / 2) * ds2 + (-(1) /
    2) * ds3) v) (pxm1mg : 0 < xm1mg v) (hxm2mg : HasDerivAt xm2mg ((-(1) / 2) * dr0 + (-(1) / 2) * dr1 + (-(1)
    / 2) * dr2 + (-(1) / 2) * dr3 + (-1) * dr4 + (-(1) / 2) * ds0 + (-(1) / 2) * ds1 + (1 / 2) * ds2 + (1 / 2) *
    ds3) v) (pxm2mg : 0 < xm2mg v) :
    HasDerivAt (fun v => D2GDR1S1 (t v) (p v) (xm1fe v) (xm2fe v) (xm1mg v) (xm2mg v))
    (((D3GDR0R1S1 (t v) (xm1mg v) (xm2mg v)) * dr0 + (D3GDR1R1S1 (t v) (xm1fe v) (xm2fe v) (xm1mg v) (xm2mg v)) *
    dr1 + (D3GDR1R2S1 (t v) (xm1mg v) (xm2mg v)) * dr2 + (D3GDR1R3S1 (t v) (xm1mg v) (xm2mg v)) * dr3 +
    (D3GDR1R4S1 (t v) (xm2mg v)) * dr4) + ((D3GDR1S1DT (xm1fe v) (xm2fe v) (xm1mg v) (xm2mg v)) * dt +
    D3GDR1S1DP * dp) + ((D3GDR1S0S1 (t v) (xm1mg v) (xm2mg v)) * ds0 + (D3GDR1S1S1 (t v) (xm1fe v) (xm2fe v)
    (xm1mg v) (xm2mg v)) * ds1 + (D3GDR1S1S2 (t v) (xm1mg v) (xm2mg v)) * ds2 + (D3GDR1S1S3 (t v) (xm1mg v)
    (xm2mg v)) * ds3)) v := by
  have nxm1fe := pxm1fe.ne'
  have nxm2fe := pxm2fe.ne'
  have nxm1mg := pxm1mg.ne'
  have nxm2mg := pxm2mg.ne'
  try simp only [D2GDR1S1, D3GDR1S1DT, D3GDR1S1DP, D3GDR0R1S1, D3GDR1R1S1, D3GDR1R2S1, D3GDR1R3S1, D3GDR1R4S1, D3GDR1S0S1, D3GDR1S1S1, D3GDR1S1S2, D3GDR1S1S3, zero_mul, mul_zero, add_zero, zero_add, sub_zero]
  have hGR2S2 := k_GR2S2 hp
  refine HasDerivAt.congr_deriv (by hdq) ?_
  ring

lemma c_D2GDR1S2 {t p r0 r1 r2 r3 r4 s0 s1 s2 s3 xm1mg xm2mg : ℝ → ℝ} {v dt dp dr0 dr1 dr2 dr3 dr4 ds0 ds1 ds2 ds3 : ℝ} (ht :
    HasDerivAt t dt v) (hp : HasDerivAt p dp v) (hr0 : HasDerivAt r0 dr0 v) (hr1 : HasDerivAt r1 dr1 v) (hr2 :
    HasDerivAt r2 dr2 v) (hr3 : HasDerivAt r3 dr3 v) (hr4 : HasDerivAt r4 dr4 v) (hs0 : HasDerivAt s0 ds0 v)
    (hs1 : HasDerivAt s1 ds1 v) (hs2 : HasDerivAt s2 ds2 v) (hs3 : HasDerivAt s3 ds3 v) (hxm1mg : HasDerivAt
    xm1mg ((-(1) / 2) * dr0 + (-(1) / 2) * dr1 + (-(1) / 2) * dr2 + (-(1) / 2) * dr3 + (1 / 2) * ds0 + (1 / 2) *
    ds1 + (-(1) / 2) * ds2 + (-(1) / 2) * ds3) v) (pxm1mg : 0 < xm1mg v) (hxm2mg : HasDerivAt xm2mg ((-(1) / 2)
    * dr0 + (-(1) / 2) * dr1 + (-(1) / 2) * dr2 + (-(1) / 2) * dr3 + (-1) * dr4 + (-(1) / 2) * ds0 + (-(1) / 2)
    * ds1 + (1 / 2) * ds2 + (1 / 2) * ds3) v) (pxm2mg : 0 < xm2mg v) :
    HasDerivAt (fun v => D2GDR1S2 (t v) (p v) (xm1mg v) (xm2mg v))
    (((D3GDR0R1S2 (t v) (xm1mg v) (xm2mg v)) * dr0 + (D3GDR1R1S2 (t v) (xm1mg v) (xm2mg v)) * dr1 + (D3GDR1R2S2
    (t v) (xm1mg v) (xm2mg v)) * dr2 + (D3GDR1R3S2 (t v) (xm1mg v) (xm2mg v)) * dr3 + (D3GDR1R4S2 (t v) (xm2mg
    v)) * dr4) + ((D3GDR1S2DT (xm1mg v) (xm2mg v)) * dt + D3GDR1S2DP * dp) + ((D3GDR1S0S2 (t v) (xm1mg v) (xm2mg
    v)) * ds0 + (D3GDR1S1S2 (t v) (xm1mg v) (xm2mg v)) * ds1 + (D3GDR1S2S2 (t v) (xm1mg v) (xm2mg v)) * ds2 +
    (D3GDR1S2S3 (t v) (xm1mg v) (xm2mg v)) * ds3)) v := by
  have nxm1mg := pxm1mg.ne'
  have nxm2mg := pxm2mg.ne'
  try simp only [D2GDR1S2, D3GDR1S2DT, D3GDR1S2DP, D3GDR0R1S2, D3GDR1R1S2, D3GDR1R2S2, D3GDR1R3S2, D3GDR1R4S2, D3GDR1S0S2, D3GDR1S1S2, D3GDR1S2S2, D3GDR1S2S3, zero_mul, mul_zero, add_zero, zero_add, sub_zero]
  have hGR2S3 := k_GR2S3 hp
  refine HasDerivAt.congr_deriv (by hdq) ?_
  ring

lemma c_D2GDR1S3 {t p r0 r1 r2 r3 r4 s0 s1 s2 s3 xm1mg xm2mg : ℝ → ℝ} {v dt dp dr0 dr1 dr2 dr3 dr4 ds0 ds1 ds2 ds3 : ℝ} (ht :
    HasDerivAt t dt v) (hp : HasDerivAt p dp v) (hr0 : HasDerivAt r0 dr0 v) (hr1 : HasDerivAt r1 dr1 v) (hr2 :
    HasDerivAt r2 dr2 v) (hr3 : HasDerivAt r3 dr3 v) (hr4 : HasDerivAt r4 dr4 v) (hs0 : HasDerivAt s0 ds0 v)
    (hs1 : HasDerivAt s1 ds1 v) (hs2 : HasDerivAt s2 ds2 v) (hs3 : HasDerivAt s3 ds3 v) (hxm1mg : HasDerivAt
    xm1mg ((-(1) / 2) * dr0 + (-(1) / 2) * dr1 + (-(1) / 2) * dr2 + (-(1) / 2) * dr3 + (1 / 2) * ds0 + (1 / 2) *
    ds1 + (-(1) / 2) * ds2 + (-(1) / 2) * ds3) v) (pxm1mg : 0 < xm1mg v) (hxm2mg : HasDerivAt xm2mg ((-(1) / 2)
    * dr0 + (-(1) / 2) * dr1 + (-(1) / 2) * dr2 + (-(1) / 2) * dr3 + (-1) * dr4 + (-(1) / 2) * ds0 + (-(1) / 2)
    * ds1 + (1 / 2) * ds2 + (1 / 2) * ds3) v) (pxm2mg : 0 < xm2mg v) :
    HasDerivAt (fun v => D2GDR1S3 (t v) (p v) (xm1mg v) (xm2mg v))
    (((D3GDR0R1S3 (t v) (xm1mg v) (xm2mg v)) * dr0 + (D3GDR1R1S3 (t v) (xm1mg v) (xm2mg v)) * dr1 + (D3GDR1R2S3
    (t v) (xm1mg v) (xm2mg v)) * dr2 + (D3GDR1R3S3 (t v) (xm1mg v) (xm2mg v)) * dr3 + (D3GDR1R4S3 (t v) (xm2mg
    v)) * dr4) + ((D3GDR1S3DT (xm1mg v) (xm2mg v)) * dt + D3GDR1S3DP * dp) + ((D3GDR1S0S3 (t v) (xm1mg v) (xm2mg
    v)) * ds0 + (D3GDR1S1S3 (t v) (xm1mg v) (xm2mg v)) * ds1 + (D3GDR1S2S3 (t v) (xm1mg v) (xm2mg v)) * ds2 +
    (D3GDR1S3S3 (t v) (xm1mg v) (xm2mg v)) * ds3)) v := by
  have nxm1mg := pxm1mg.ne'
  have nxm2mg := pxm2mg.ne'
  try simp only [D2GDR1S3, D3GDR1S3DT, D3GDR1S3DP, D3GDR0R1S3, D3GDR1R1S3, D3GDR1R2S3, D3GDR1R3S3, D3GDR1R4S3, D3GDR1S0S3, D3GDR1S1S3, D3GDR1S2S3, D3GDR1S3S3, zero_mul, mul_zero, add_zero, zero_add, sub_zero]
  have hGR2S4 := k_GR2S4 hp
  refine HasDerivAt.congr_deriv (by hdq) ?_
  ring

lemma c_D2GDR1DT {t p r0 r1 r2 r3 r4 s0 s1 s2 s3 xm1fe xm2fe xm1mg xm2mg : ℝ → ℝ} {v dt dp dr0 dr1 dr2 dr3 dr4 ds0 ds1 ds2
    ds3 : ℝ} (ht : HasDerivAt t dt v) (hp : HasDerivAt p dp v) (hr0 : HasDerivAt r0 dr0 v) (hr1 : HasDerivAt r1
    dr1 v) (hr2 : HasDerivAt r2 dr2 v) (hr3 : HasDerivAt r3 dr3 v) (hr4 : HasDerivAt r4 dr4 v) (hs0 : HasDerivAt
    s0 ds0 v) (hs1 : HasDerivAt s1 ds1 v) (hs2 : HasDerivAt s2 ds2 v) (hs3 : HasDerivAt s3 ds3 v) (hxm1fe :
    HasDerivAt xm1fe ((1 / 2) * dr1 + (-(1) / 2) * ds1) v) (pxm1fe : 0 < xm1fe v) (hxm2fe : HasDerivAt xm2fe ((1
    / 2) * dr1 + (1 / 2) * ds1) v) (pxm2fe : 0 < xm2fe v) (hxm1mg : HasDerivAt xm1mg ((-(1) / 2) * dr0 + (-(1) /
    2) * dr1 + (-(1) / 2) * dr2 + (-(1) / 2) * dr3 + (1 / 2) * ds0 + (1 / 2) * ds1 + (-(1) / 2) * ds2 + (-(1) /
    2) * ds3) v) (pxm1mg : 0 < xm1mg v) (hxm2mg : HasDerivAt xm2mg ((-(1) / 2) * dr0 + (-(1) / 2) * dr1 + (-(1)
    / 2) * dr2 + (-(1) / 2) * dr3 + (-1) * dr4 + (-(1) / 2) * ds0 + (-(1) / 2) * ds1 + (1 / 2) * ds2 + (1 / 2) *
    ds3) v) (pxm2mg : 0 < xm2mg v) :
    HasDerivAt (fun v => D2GDR1DT (xm1fe v) (xm2fe v) (xm1mg v) (xm2mg v))
    (((D3GDR0R1DT (xm1mg v) (xm2mg v)) * dr0 + (D3GDR1R1DT (xm1fe v) (xm2fe v) (xm1mg v) (xm2mg v)) * dr1 +
    (D3GDR1R2DT (xm1mg v) (xm2mg v)) * dr2 + (D3GDR1R3DT (xm1mg v) (xm2mg v)) * dr3 + (D3GDR1R4DT (xm2mg v)) *
    dr4) + (D3GDR1DT2 * dt + D3GDR1DTDP * dp) + ((D3GDR1S0DT (xm1mg v) (xm2mg v)) * ds0 + (D3GDR1S1DT (xm1fe v)
    (xm2fe v) (xm1mg v) (xm2mg v)) * ds1 + (D3GDR1S2DT (xm1mg v) (xm2mg v)) * ds2 + (D3GDR1S3DT (xm1mg v) (xm2mg
    v)) * ds3)) v := by
  have nxm1fe := pxm1fe.ne'
  have nxm2fe := pxm2fe.ne'
  have nxm1mg := pxm1mg.ne'
  have nxm2mg := pxm2mg.ne'
  try simp only [D2GDR1DT, D3GDR1DT2, D3GDR1DTDP, D3GDR0R1DT, D3GDR1R1DT, D3GDR1R2DT, D3GDR1R3DT, D3GDR1R4DT, D3GDR1S0DT, D3GDR1S1DT, D3GDR1S2DT, D3GDR1S3DT, zero_mul, mul_zero, add_zero, zero_add, sub_zero]
  refine HasDerivAt.congr_deriv (by hdq) ?_
  try simp only [log4 nxm1fe nxm2fe nxm1mg nxm2mg]
  ring

lemma c_D2GDR1DP {t p r0 r1 r2 r3 r4 s0 s1 s2 s3 : ℝ → ℝ} {v dt dp dr0 dr1 dr2 dr3 dr4 ds0 ds1 ds2 ds3 : ℝ} (ht : HasDerivAt
    t dt v) (hp : HasDerivAt p dp v) (hr0 : HasDerivAt r0 dr0 v) (hr1 : HasDerivAt r1 dr1 v) (hr2 : HasDerivAt
    r2 dr2 v) (hr3 : HasDerivAt r3 dr3 v) (hr4 : HasDerivAt r4 dr4 v) (hs0 : HasDerivAt s0 ds0 v) (hs1 :
    HasDerivAt s1 ds1 v) (hs2 : HasDerivAt s2 ds2 v) (hs3 : HasDerivAt s3 ds3 v) :
    HasDerivAt (fun v => D2GDR1DP (r0 v) (r1 v) (r2 v) (r3 v) (r4 v) (s0 v) (s1 v) (s2 v) (s3 v))
    ((D3GDR0R1DP * dr0 + D3GDR1R1DP * dr1 + D3GDR1R2DP * dr2 + D3GDR1R3DP * dr3 + D3GDR1R4DP * dr4) + (D3GDR1DTDP
    * dt + D3GDR1DP2 * dp) + (D3GDR1S0DP * ds0 + D3GDR1S1DP * ds1 + D3GDR1S2DP * ds2 + D3GDR1S3DP * ds3)) v := by
  try simp only [D2GDR1DP, D3GDR1DTDP, D3GDR1DP2, D3GDR0R1DP, D3GDR1R1DP, D3GDR1R2DP, D3GDR1R3DP, D3GDR1R4DP, D3GDR1S0DP, D3GDR1S1DP, D3GDR1S2DP, D3GDR1S3DP, zero_mul, mul_zero, add_zero, zero_add, sub_zero]
  refine HasDerivAt.congr_deriv (by hdq) ?_
  ring

lemma c_D2GDR2R2 {t p r0 r1 r2 r3 r4 s0 s1 s2 s3 xm1co xm2co xm1mg xm2mg : ℝ → ℝ} {v dt dp dr0 dr1 dr2 dr3 dr4 ds0 ds1 ds2
    ds3 : ℝ} (ht : HasDerivAt t dt v) (hp : HasDerivAt p dp v) (hr0 : HasDerivAt r0 dr0 v) (hr1 : HasDerivAt r1
    dr1 v) (hr2 : HasDerivAt r2 dr2 v) (hr3 : HasDerivAt r3 dr3 v) (hr4 : HasDerivAt r4 dr4 v) (hs0 : HasDerivAt
    s0 ds0 v) (hs1 : HasDerivAt s1 ds1 v) (hs2 : HasDerivAt s2 ds2 v) (hs3 : HasDerivAt s3 ds3 v) (hxm1co :
    HasDerivAt xm1co ((1 / 2) * dr2 + (1 / 2) * ds2) v) (pxm1co : 0 < xm1co v) (hxm2co : HasDerivAt xm2co ((1 /
    2) * dr2 + (-(1) / 2) * ds2) v) (pxm2co : 0 < xm2co v) (hxm1mg : HasDerivAt xm1mg ((-(1) / 2) * dr0 + (-(1)
    / 2) * dr1 + (-(1) / 2) * dr2 + (-(1) / 2) * dr3 + (1 / 2) * ds0 + (1 / 2) * ds1 + (-(1) / 2) * ds2 + (-(1)
    / 2) * ds3) v) (pxm1mg : 0 < xm1mg v) (hxm2mg : HasDerivAt xm2mg ((-(1) / 2) * dr0 + (-(1) / 2) * dr1 +
    (-(1) / 2) * dr2 + (-(1) / 2) * dr3 + (-1) * dr4 + (-(1) / 2) * ds0 + (-(1) / 2) * ds1 + (1 / 2) * ds2 + (1
    / 2) * ds3) v) (pxm2mg : 0 < xm2mg v) :
    HasDerivAt (fun v => D2GDR2R2 (t v) (p v) (xm1co v) (xm2co v) (xm1mg v) (xm2mg v))
    (((D3GDR0R0R1 (t v) (xm1mg v) (xm2mg v)) * dr0 + (D3GDR0R0R1 (t v) (xm1mg v) (xm2mg v)) * dr1 + (D3GDR2R2R2
    (t v) (xm1co v) (xm2co v) (xm1mg v) (xm2mg v)) * dr2 + (D3GDR0R0R1 (t v) (xm1mg v) (xm2mg v)) * dr3 +
    (D3GDR4R0R0 (t v) (xm2mg v)) * dr4) + ((D3GDR2R2DT (xm1co v) (xm2co v) (xm1mg v) (xm2mg v)) * dt +
    D3GDR2R2DP * dp) + ((D3GDR2R2S0 (t v) (xm1mg v) (xm2mg v)) * ds0 + (D3GDR2R2S1 (t v) (xm1mg v) (xm2mg v)) *
    ds1 + (D3GDR2R2S2 (t v) (xm1co v) (xm2co v) (xm1mg v) (xm2mg v)) * ds2 + (D3GDR2R2S3 (t v) (xm1mg v) (xm2mg
    v)) * ds3)) v := by
  have nxm1co := pxm1co.ne'
  have nxm2co := pxm2co.ne'
  have nxm1mg := pxm1mg.ne'
  have nxm2mg := pxm2mg.ne'
  try simp only [D2GDR2R2, D3GDR2R2DT, D3GDR2R2DP, D3GDR0R0R1, D3GDR2R2R2, D3GDR4R0R0, D3GDR2R2S0, D3GDR2R2S1, D3GDR2R2S2, D3GDR2R2S3, zero_mul, mul_zero, add_zero, zero_add, sub_zero]
  have hGR3R3 := k_GR3R3 hp
  refine HasDerivAt.congr_deriv (by hdq) ?_
  ring

lemma c_D2GDR2R3 {t p r0 r1 r2 r3 r4 s0 s1 s2 s3 xm1mg xm2mg : ℝ → ℝ} {v dt dp dr0 dr1 dr2 dr3 dr4 ds0 ds1 ds2 ds3 : ℝ} (ht :
    HasDerivAt t dt v) (hp : HasDerivAt p dp v) (hr0 : HasDerivAt r0 dr0 v) (hr1 : HasDerivAt r1 dr1 v) (hr2 :
    HasDerivAt r2 dr2 v) (hr3 : HasDerivAt r3 dr3 v) (hr4 : HasDerivAt r4 dr4 v) (hs0 : HasDerivAt s0 ds0 v)
    (hs1 : HasDerivAt s1 ds1 v) (hs2 : HasDerivAt s2 ds2 v) (hs3 : HasDerivAt s3 ds3 v) (hxm1mg : HasDerivAt
    xm1mg ((-(1) / 2) * dr0 + (-(1) / 2) * dr1 + (-(1) / 2) * dr2 + (-(1) / 2) * dr3 + (1 / 2) * ds0 + (1 / 2) *
    ds1 + (-(1) / 2) * ds2 + (-(1) / 2) * ds3) v) (pxm1mg : 0 < xm1mg v) (hxm2mg : HasDerivAt xm2mg ((-(1) / 2)
    * dr0 + (-(1) / 2) * dr1 + (-(1) / 2) * dr2 + (-(1) / 2) * dr3 + (-1) * dr4 + (-(1) / 2) * ds0 + (-(1) / 2)
    * ds1 + (1 / 2) * ds2 + (1 / 2) * ds3) v) (pxm2mg : 0 < xm2mg v) :
    HasDerivAt (fun v => D2GDR2R3 (t v) (p v) (xm1mg v) (xm2mg v))
    (((D3GDR0R0R1 (t v) (xm1mg v) (xm2mg v)) * dr0 + (D3GDR0R0R1 (t v) (xm1mg v) (xm2mg v)) * dr1 + (D3GDR0R0R1
    (t v) (xm1mg v) (xm2mg v)) * dr2 + (D3GDR0R0R1 (t v) (xm1mg v) (xm2mg v)) * dr3 + (D3GDR4R0R0 (t v) (xm2mg
    v)) * dr4) + ((D3GDR2R3DT (xm1mg v) (xm2mg v)) * dt + D3GDR2R3DP * dp) + ((D3GDR2R3S0 (t v) (xm1mg v) (xm2mg
    v)) * ds0 + (D3GDR2R3S1 (t v) (xm1mg v) (xm2mg v)) * ds1 + (D3GDR2R3S2 (t v) (xm1mg v) (xm2mg v)) * ds2 +
    (D3GDR2R3S3 (t v) (xm1mg v) (xm2mg v)) * ds3)) v := by
  have nxm1mg := pxm1mg.ne'
  have nxm2mg := pxm2mg.ne'
  try simp only [D2GDR2R3, D3GDR2R3DT, D3GDR2R3DP, D3GDR0R0R1, D3GDR4R0R0, D3GDR2R3S0, D3GDR2R3S1, D3GDR2R3S2, D3GDR2R3S3, zero_mul, mul_zero, add_zero, zero_add, sub_zero]
  have hGR3R4 := k_GR3R4 hp
  refine HasDerivAt.congr_deriv (by hdq) ?_
  ring

lemma c_D2GDR2R4 {t p r0 r1 r2 r3 r4 s0 s1 s2 s3 xm2mg : ℝ → ℝ} {v dt dp dr0 dr1 dr2 dr3 dr4 ds0 ds1 ds2 ds3 : ℝ} (ht :
    HasDerivAt t dt v) (hp : HasDerivAt p dp v) (hr0 : HasDerivAt r0 dr0 v) (hr1 : HasDerivAt r1 dr1 v) (hr2 :
    HasDerivAt r2 dr2 v) (hr3 : HasDerivAt r3 dr3 v) (hr4 : HasDerivAt r4 dr4 v) (hs0 : HasDerivAt s0 ds0 v)
    (hs1 : HasDerivAt s1 ds1 v) (hs2 : HasDerivAt s2 ds2 v) (hs3 : HasDerivAt s3 ds3 v) (hxm2mg : HasDerivAt
    xm2mg ((-(1) / 2) * dr0 + (-(1) / 2) * dr1 + (-(1) / 2) * dr2 + (-(1) / 2) * dr3 + (-1) * dr4 + (-(1) / 2) *
    ds0 + (-(1) / 2) * ds1 + (1 / 2) * ds2 + (1 / 2) * ds3) v) (pxm2mg : 0 < xm2mg v) :
    HasDerivAt (fun v => D2GDR2R4 (t v) (p v) (xm2mg v))
    (((D3GDR4R0R0 (t v) (xm2mg v)) * dr0 + (D3GDR4R0R0 (t v) (xm2mg v)) * dr1 + (D3GDR4R0R0 (t v) (xm2mg v)) *
    dr2 + (D3GDR4R0R0 (t v) (xm2mg v)) * dr3 + (D3GDR4R4R0 (t v) (xm2mg v)) * dr4) + ((D3GDR2R4DT (xm2mg v)) *
    dt + D3GDR2R4DP * dp) + ((D3GDR2R4S0 (t v) (xm2mg v)) * ds0 + (D3GDR2R4S1 (t v) (xm2mg v)) * ds1 +
    (D3GDR2R4S2 (t v) (xm2mg v)) * ds2 + (D3GDR2R4S3 (t v) (xm2mg v)) * ds3)) v := by
  have nxm2mg := pxm2mg.ne'
  try simp only [D2GDR2R4, D3GDR2R4DT, D3GDR2R4DP, D3GDR4R0R0, D3GDR4R4R0, D3GDR2R4S0, D3GDR2R4S1, D3GDR2R4S2, D3GDR2R4S3, zero_mul, mul_zero, add_zero, zero_add, sub_zero]
  have hGR3R5 := k_GR3R5 hp
  refine HasDerivAt.congr_deriv (by hdq) ?_
  ring

lemma c_D2GDR2S0 {t p r0 r1 r2 r3 r4 s0 s1 s2 s3 xm1mg xm2mg : ℝ → ℝ} {v dt dp dr0 dr1 dr2 dr3 dr4 ds0 ds1 ds2 ds3 : ℝ} (ht :
    HasDerivAt t dt v) (hp : HasDerivAt p dp v) (hr0 : HasDerivAt r0 dr0 v) (hr1 : HasDerivAt r1 dr1 v) (hr2 :
    HasDerivAt r2 dr2 v) (hr3 : HasDerivAt r3 dr3 v) (hr4 : HasDerivAt r4 dr4 v) (hs0 : HasDerivAt s0 ds0 v)
    (hs1 : HasDerivAt s1 ds1 v) (hs2 : HasDerivAt s2 ds2 v) (hs3 : HasDerivAt s3 ds3 v) (hxm1mg : HasDerivAt
    xm1mg ((-(1) / 2) * dr0 + (-(1) / 2) * dr1 + (-(1) / 2) * dr2 + (-(1) / 2) * dr3 + (1 / 2) * ds0 + (1 / 2) *
    ds1 + (-(1) / 2) * ds2 + (-(1) / 2) * ds3) v) (pxm1mg : 0 < xm1mg v) (hxm2mg : HasDerivAt xm2mg ((-(1) / 2)
    * dr0 + (-(1) / 2) * dr1 + (-(1) / 2) * dr2 + (-(1) / 2) * dr3 + (-1) * dr4 + (-(1) / 2) * ds0 + (-(1) / 2)
    * ds1 + (1 / 2) * ds2 + (1 / 2) * ds3) v) (pxm2mg : 0 < xm2mg v) :
    HasDerivAt (fun v => D2GDR2S0 (t v) (p v) (xm1mg v) (xm2mg v))
    (((D3GDR0R2S0 (t v) (xm1mg v) (xm2mg v)) * dr0 + (D3GDR1R2S0 (t v) (xm1mg v) (xm2mg v)) * dr1 + (D3GDR2R2S0
    (t v) (xm1mg v) (xm2mg v)) * dr2 + (D3GDR2R3S0 (t v) (xm1mg v) (xm2mg v)) * dr3 + (D3GDR2R4S0 (t v) (xm2mg
    v)) * dr4) + ((D3GDR2S0DT (xm1mg v) (xm2mg v)) * dt + D3GDR2S0DP * dp) + ((D3GDR2S0S0 (t v) (xm1mg v) (xm2mg
    v)) * ds0 + (D3GDR2S0S1 (t v) (xm1mg v) (xm2mg v)) * ds1 + (D3GDR2S0S2 (t v) (xm1mg v) (xm2mg v)) * ds2 +
    (D3GDR2S0S3 (t v) (xm1mg v) (xm2mg v)) * ds3)) v := by
  have nxm1mg := pxm1mg.ne'
  have nxm2mg := pxm2mg.ne'
  try simp only [D2GDR2S0, D3GDR2S0DT, D3GDR2S0DP, D3GDR0R2S0, D3GDR1R2S0, D3GDR2R2S0, D3GDR2R3S0, D3GDR2R4S0, D3GDR2S0S0, D3GDR2S0S1, D3GDR2S0S2, D3GDR2S0S3, zero_mul, mul_zero, add_zero, zero_add, sub_zero]
  have hGR3S1 := k_GR3S1 hp
  refine HasDerivAt.congr_deriv (by hdq) ?_
  ring

lemma c_D2GDR2S1 {t p r0 r1 r2 r3 r4 s0 s1 s2 s3 xm1mg xm2mg : ℝ → ℝ} {v dt dp dr0 dr1 dr2 dr3 dr4 ds0 ds1 ds2 ds3 : ℝ} (ht :
    HasDerivAt t dt v) (hp : HasDerivAt p dp v) (hr0 : HasDerivAt r0 dr0 v) (hr1 : HasDerivAt r1 dr1 v) (hr2 :
    HasDerivAt r2 dr2 v) (hr3 : HasDerivAt r3 dr3 v) (hr4 : HasDerivAt r4 dr4 v) (hs0 : HasDerivAt s0 ds0 v)
    (hs1 : HasDerivAt s1 ds1 v) (hs2 : HasDerivAt s2 ds2 v) (hs3 : HasDerivAt s3 ds3 v) (hxm1mg : HasDerivAt
    xm1mg ((-(1) / 2) * dr0 + (-(1) / 2) * dr1 + (-(1) / 2) * dr2 + (-(1) / 2) * dr3 + (1 / 2) * ds0 + (1 / 2) *
    ds1 + (-(1) / 2) * ds2 + (-(1) / 2) * ds3) v) (pxm1mg : 0 < xm1mg v) (hxm2mg : HasDerivAt xm2mg ((-(1) / 2)
    * dr0 + (-(1) / 2) * dr1 + (-(1) / 2) * dr2 + (-(1) / 2) * dr3 + (-1) * dr4 + (-(1) / 2) * ds0 + (-(1) / 2)
    * ds1 + (1 / 2) * ds2 + (1 / 2) * ds3) v) (pxm2mg : 0 < xm2mg v) :
    HasDerivAt (fun v => D2GDR2S1 (t v) (p v) (xm1mg v) (xm2mg v))
    (((D3GDR0R2S1 (t v) (xm1mg v) (xm2mg v)) * dr0 + (D3GDR1R2S1 (t v) (xm1mg v) (xm2mg v)) * dr1 + (D3GDR2R2S1
    (t v) (xm1mg v) (xm2mg v)) * dr2 + (D3GDR2R3S1 (t v) (xm1mg v) (xm2mg v)) * dr3 + (D3GDR2R4S1 (t v) (xm2mg
    v)) * dr4) + ((D3GDR2S1DT (xm1mg v) (xm2mg v)) * dt + D3GDR2S1DP * dp) + ((D3GDR2S0S1 (t v) (xm1mg v) (xm2mg
    v)) * ds0 + (D3GDR2S1S1 (t v) (xm1mg v) (xm2mg v)) * ds1 + (D3GDR2S1S2 (t v) (xm1mg v) (xm2mg v)) * ds2 +
    (D3GDR2S1S3 (t v) (xm1mg v) (xm2mg v)) * ds3)) v := by
  have nxm1mg := pxm1mg.ne'
  have nxm2mg := pxm2mg.ne'
  try simp only [D2GDR2S1, D3GDR2S1DT, D3GDR2S1DP, D3GDR0R2S1, D3GDR1R2S1, D3GDR2R2S1, D3GDR2R3S1, D3GDR2R4S1, D3GDR2S0S1, D3GDR2S1S1, D3GDR2S1S2, D3GDR2S1S3, zero_mul, mul_zero, add_zero, zero_add, sub_zero]
  have hGR3S2 := k_GR3S2 hp
  refine HasDerivAt.congr_deriv (by hdq) ?_
  ring

lemma c_D2GDR2S2 {t p r0 r1 r2 r3 r4 s0 s1 s2 s3 xm1co xm2co xm1mg xm2mg : ℝ → ℝ} {v dt dp dr0 dr1 dr2 dr3 dr4 ds0 ds1 ds2
    ds3 : ℝ} (ht : HasDerivAt t dt v) (hp : HasDerivAt p dp v) (hr0 : HasDerivAt r0 dr0 v) (hr1 : HasDerivAt r1
    dr1 v) (hr2 : HasDerivAt r2 dr2 v) (hr3 : HasDerivAt r3 dr3 v) (hr4 : HasDerivAt r4 dr4 v) (hs0 : HasDerivAt
    s0 ds0 v) (hs1 : HasDerivAt s1 ds1 v) (hs2 : HasDerivAt s2 ds2 v) (hs3 : HasDerivAt s3 ds3 v) (hxm1co :
    HasDerivAt xm1co ((1 / 2) * dr2 + (1 / 2) * ds2) v) (pxm1co : 0 < xm1co v) (hxm2co : HasDerivAt xm2co ((1 /
    2) * dr2 + (-(1) / 2) * ds2) v) (pxm2co : 0 < xm2co v) (hxm1mg : HasDerivAt xm1mg ((-(1) / 2) * dr0 + (-(1)
    / 2) * dr1 + (-(1) / 2) * dr2 + (-(1) / 2) * dr3 + (1 / 2) * ds0 + (1 / 2) * ds1 + (-(1) / 2) * ds2 + (-(1)
    / 2) * ds3) v) (pxm1mg : 0 < xm1mg v) (hxm2mg : HasDerivAt xm2mg ((-(1) / 2) * dr0 + (-(1) / 2) * dr1 +
    (-(1) / 2) * dr2 + (-(1) / 2) * dr3 + (-1) * dr4 + (-(1) / 2) * ds0 + (-(1) / 2) * ds1 + (1 / 2) * ds2 + (1
    / 2) * ds3) v) (pxm2mg : 0 < xm2mg v) :
    HasDerivAt (fun v => D2GDR2S2 (t v) (p v) (xm1co v) (xm2co v) (xm1mg v) (xm2mg v))
    (((D3GDR0R2S2 (t v) (xm1mg v) (xm2mg v)) * dr0 + (D3GDR1R2S2 (t v) (xm1mg v) (xm2mg v)) * dr1 + (D3GDR2R2S2
    (t v) (xm1co v) (xm2co v) (xm1mg v) (xm2mg v)) * dr2 + (D3GDR2R3S2 (t v) (xm1mg v) (xm2mg v)) * dr3 +
    (D3GDR2R4S2 (t v) (xm2mg v)) * dr4) + ((D3GDR2S2DT (xm1co v) (xm2co v) (xm1mg v) (xm2mg v)) * dt +
    D3GDR2S2DP * dp) + ((D3GDR2S0S2 (t v) (xm1mg v) (xm2mg v)) * ds0 + (D3GDR2S1S2 (t v) (xm1mg v) (xm2mg v)) *
    ds1 + (D3GDR2S2S2 (t v) (xm1co v) (xm2co v) (xm1mg v) (xm2mg v)) * ds2 + (D3GDR2S2S3 (t v) (xm1mg v) (xm2mg
    v)) * ds3)) v := by
  have nxm1co := pxm1co.ne'
  have nxm2co := pxm2co.ne'
  have nxm1mg := pxm1mg.ne'
  have nxm2mg := pxm2mg.ne'
  try simp only [D2GDR2S2, D3GDR2S2DT, D3GDR2S2DP, D3GDR0R2S2, D3GDR1R2S2, D3GDR2R2S2, D3GDR2R3S2, D3GDR2R4S2, D3GDR2S0S2, D3GDR2S1S2, D3GDR2S2S2, D3GDR2S2S3, zero_mul, mul_zero, add_zero, zero_add, sub_zero]
  have hGR3S3 := k_GR3S3 hp
  refine HasDerivAt.congr_deriv (by hdq) ?_
  ring

lemma c_D2GDR2S3 {t p r0 r1 r2 r3 r4 s0 s1 s2 s3 xm1mg xm2mg : ℝ → ℝ} {v dt dp dr0 dr1 dr2 dr3 dr4 ds0 ds1 ds2 ds3 : ℝ} (ht :
    HasDerivAt t dt v) (hp : HasDerivAt p dp v) (hr0 : HasDerivAt r0 dr0 v) (hr1 : HasDerivAt r1 dr1 v) (hr2 :
    HasDerivAt r2 dr2 v) (hr3 : HasDerivAt r3 dr3 v) (hr4 : HasDerivAt r4 dr4 v) (hs0 : HasDerivAt s0 ds0 v)
    (hs1 : HasDerivAt s1 ds1 v) (hs2 : HasDerivAt s2 ds2 v) (hs3 : HasDerivAt s3 ds3 v) (hxm1mg : HasDerivAt
    xm1mg ((-(1) / 2) * dr0 + (-(1) / 2) * dr1 + (-(1) / 2) * dr2 + (-(1) / 2) * dr3 + (1 / 2) * ds0 + (1 / 2) *
    ds1 + (-(1) / 2) * ds2 + (-(1) / 2) * ds3) v) (pxm1mg : 0 < xm1mg v) (hxm2mg : HasDerivAt xm2mg ((-(1) / 2)
    * dr0 + (-(1) / 2) * dr1 + (-(1) / 2) * dr2 + (-(1) / 2) * dr3 + (-1) * dr4 + (-(1) / 2) * ds0 + (-(1) / 2)
    * ds1 + (1 / 2) * ds2 + (1 / 2) * ds3) v) (pxm2mg : 0 < xm2mg v) :
    HasDerivAt (fun v => D2GDR2S3 (t v) (p v) (xm1mg v) (xm2mg v))
    (((D3GDR0R2S3 (t v) (xm1mg v) (xm2mg v)) * dr0 + (D3GDR1R2S3 (t v) (xm1mg v) (xm2mg v)) * dr1 + (D3GDR2R2S3
    (t v) (xm1mg v) (xm2mg v)) * dr2 + (D3GDR2R3S3 (t v) (xm1mg v) (xm2mg v)) * dr3 + (D3GDR2R4S3 (t v) (xm2mg
    v)) * dr4) + ((D3GDR2S3DT (xm1mg v) (xm2mg v)) * dt + D3GDR2S3DP * dp) + ((D3GDR2S0S3 (t v) (xm1mg v) (xm2mg
    v)) * ds0 + (D3GDR2S1S3 (t v) (xm1mg v) (xm2mg v)) * ds1 + (D3GDR2S2S3 (t v) (xm1mg v) (xm2mg v)) * ds2 +
    (D3GDR2S3S3 (t v) (xm1mg v) (xm2mg v)) * ds3)) v := by
  have nxm1mg := pxm1mg.ne'
  have nxm2mg := pxm2mg.ne'
  try simp only [D2GDR2S3, D3GDR2S3DT, D3GDR2S3DP, D3GDR0R2S3, D3GDR1R2S3, D3GDR2R2S3, D3GDR2R3S3, D3GDR2R4S3, D3GDR2S0S3, D3GDR2S1S3, D3GDR2S2S3, D3GDR2S3S3, zero_mul, mul_zero, add_zero, zero_add, sub_zero]
  have hGR3S4 := k_GR3S4 hp
  refine HasDerivAt.congr_deriv (by hdq) ?_
  ring

lemma c_D2GDR2DT {t p r0 r1 r2 r3 r4 s0 s1 s2 s3 xm1co xm2co xm1mg xm2mg : ℝ → ℝ} {v dt dp dr0 dr1 dr2 dr3 dr4 ds0 ds1 ds2
    ds3 : ℝ} (ht : HasDerivAt t dt v) (hp : HasDerivAt p dp v) (hr0 : HasDerivAt r0 dr0 v) (hr1 : HasDerivAt r1
    dr1 v) (hr2 : HasDerivAt r2 dr2 v) (hr3 : HasDerivAt r3 dr3 v) (hr4 : HasDerivAt r4 dr4 v) (hs0 : HasDerivAt
    s0 ds0 v) (hs1 : HasDerivAt s1 ds1 v) (hs2 : HasDerivAt s2 ds2 v) (hs3 : HasDerivAt s3 ds3 v) (hxm1co :
    HasDerivAt xm1co ((1 / 2) * dr2 + (1 / 2) * ds2) v) (pxm1co : 0 < xm1co v) (hxm2co : HasDerivAt xm2co ((1 /
    2) * dr2 + (-(1) / 2) * ds2) v) (pxm2co : 0 < xm2co v) (hxm1mg : HasDerivAt xm1mg ((-(1) / 2) * dr0 + (-(1)
    / 2) * dr1 + (-(1) / 2) * dr2 + (-(1) / 2) * dr3 + (1 / 2) * ds0 + (1 / 2) * ds1 + (-(1) / 2) * ds2 + (-(1)
    / 2) * ds3) v) (pxm1mg : 0 < xm1mg v) (hxm2mg : HasDerivAt xm2mg ((-(1) / 2) * dr0 + (-(1) / 2) * dr1 +
    (-(1) / 2) * dr2 + (-(1) / 2) * dr3 + (-1) * dr4 + (-(1) / 2) * ds0 + (-(1) / 2) * ds1 + (1 / 2) * ds2 + (1
    / 2) * ds3) v) (pxm2mg : 0 < xm2mg v) :
    HasDerivAt (fun v => D2GDR2DT (xm1co v) (xm2co v) (xm1mg v) (xm2mg v))
    (((D3GDR0R2DT (xm1mg v) (xm2mg v)) * dr0 + (D3GDR1R2DT (xm1mg v) (xm2mg v)) * dr1 + (D3GDR2R2DT (xm1co v)
    (xm2co v) (xm1mg v) (xm2mg v)) * dr2 + (D3GDR2R3DT (xm1mg v) (xm2mg v)) * dr3 + (D3GDR2R4DT (xm2mg v)) *
    dr4) + (D3GDR2DT2 * dt + D3GDR2DTDP * dp) + ((D3GDR2S0DT (xm1mg v) (xm2mg v)) * ds0 + (D3GDR2S1DT (xm1mg v)
    (xm2mg v)) * ds1 + (D3GDR2S2DT (xm1co v) (xm2co v) (xm1mg v) (xm2mg v)) * ds2 + (D3GDR2S3DT (xm1mg v) (xm2mg
    v)) * ds3)) v := by
  have nxm1co := pxm1co.ne'
  have nxm2co := pxm2co.ne'
  have nxm1mg := pxm1mg.ne'
  have nxm2mg := pxm2mg.ne'
  try simp only [D2GDR2DT, D3GDR2DT2, D3GDR2DTDP, D3GDR0R2DT, D3GDR1R2DT, D3GDR2R2DT, D3GDR2R3DT, D3GDR2R4DT, D3GDR2S0DT, D3GDR2S1DT, D3GDR2S2DT, D3GDR2S3DT, zero_mul, mul_zero, add_zero, zero_add, sub_zero]
  refine HasDerivAt.congr_deriv (by hdq) ?_
  try simp only [log4 nxm1co nxm2co nxm1mg nxm2mg]
  ring

lemma c_D2GDR2DP {t p r0 r1 r2 r3 r4 s0 s1 s2 s3 : ℝ → ℝ} {v dt dp dr0 dr1 dr2 dr3 dr4 ds0 ds1 ds2 ds3 : ℝ} (ht : HasDerivAt
    t dt v) (hp : HasDerivAt p dp v) (hr0 : HasDerivAt r0 dr0 v) (hr1 : HasDerivAt r1 dr1 v) (hr2 : HasDerivAt
    r2 dr2 v) (hr3 : HasDerivAt r3 dr3 v) (hr4 : HasDerivAt r4 dr4 v) (hs0 : HasDerivAt s0 ds0 v) (hs1 :
    HasDerivAt s1 ds1 v) (hs2 : HasDerivAt s2 ds2 v) (hs3 : HasDerivAt s3 ds3 v) :
    HasDerivAt (fun v => D2GDR2DP (r0 v) (r1 v) (r2 v) (r3 v) (r4 v) (s0 v) (s1 v) (s2 v) (s3 v))
    ((D3GDR0R2DP * dr0 + D3GDR1R2DP * dr1 + D3GDR2R2DP * dr2 + D3GDR2R3DP * dr3 + D3GDR2R4DP * dr4) + (D3GDR2DTDP
    * dt + D3GDR2DP2 * dp) + (D3GDR2S0DP * ds0 + D3GDR2S1DP * ds1 + D3GDR2S2DP * ds2 + D3GDR2S3DP * ds3)) v := by
  try simp only [D2GDR2DP, D3GDR2DTDP, D3GDR2DP2, D3GDR0R2DP, D3GDR1R2DP, D3GDR2R2DP, D3GDR2R3DP, D3GDR2R4DP, D3GDR2S0DP, D3GDR2S1DP, D3GDR2S2DP, D3GDR2S3DP, zero_mul, mul_zero, add_zero, zero_add, sub_zero]
  refine HasDerivAt.congr_deriv (by hdq) ?_
  ring

lemma c_D2GDR3R3 {t p r0 r1 r2 r3 r4 s0 s1 s2 s3 xm1ni xm2ni xm1mg xm2mg : ℝ → ℝ} {v dt dp dr0 dr1 dr2 dr3 dr4 ds0 ds1 ds2
    ds3 : ℝ} (ht : HasDerivAt t dt v) (hp : HasDerivAt p dp v) (hr0 : HasDerivAt r0 dr0 v) (hr1 : HasDerivAt r1
    dr1 v) (hr2 : HasDerivAt r2 dr2 v) (hr3 : HasDerivAt r3 dr3 v) (hr4 : HasDerivAt r4 dr4 v) (hs0 : HasDerivAt
    s0 ds0 v) (hs1 : HasDerivAt s1 ds1 v) (hs2 : HasDerivAt s2 ds2 v) (hs3 : HasDerivAt s3 ds3 v) (hxm1ni :
    HasDerivAt xm1ni ((1 / 2) * dr3 + (1 / 2) * ds3) v) (pxm1ni : 0 < xm1ni v) (hxm2ni : HasDerivAt xm2ni ((1 /
    2) * dr3 + (-(1) / 2) * ds3) v) (pxm2ni : 0 < xm2ni v) (hxm1mg : HasDerivAt xm1mg ((-(1) / 2) * dr0 + (-(1)
    / 2) * dr1 + (-(1) / 2) * dr2 + (-(1) / 2) * dr3 + (1 / 2) * ds0 + (1 / 2) * ds1 + (-(1) / 2) * ds2 + (-(1)
    / 2) * ds3) v) (pxm1mg : 0 < xm1mg v) (hxm2mg : HasDerivAt xm2mg ((-(1) / 2) * dr0 + (-(1) / 2) * dr1 +
    (-(1) / 2) * dr2 + (-(1) / 2) * dr3 + (-1) * dr4 + (-(1) / 2) * ds0 + (-(1) / 2) * ds1 + (1 / 2) * ds2 + (1
    / 2) * ds3) v) (pxm2mg : 0 < xm2mg v) :
    HasDerivAt (fun v => D2GDR3R3 (t v) (p v) (xm1ni v) (xm2ni v) (xm1mg v) (xm2mg v))
    (((D3GDR0R0R1 (t v) (xm1mg v) (xm2mg v)) * dr0 + (D3GDR0R0R1 (t v) (xm1mg v) (xm2mg v)) * dr1 + (D3GDR0R0R1
    (t v) (xm1mg v) (xm2mg v)) * dr2 + (D3GDR3R3R3 (t v) (xm1ni v) (xm2ni v) (xm1mg v) (xm2mg v)) * dr3 +
    (D3GDR4R0R0 (t v) (xm2mg v)) * dr4) + ((D3GDR3R3DT (xm1ni v) (xm2ni v) (xm1mg v) (xm2mg v)) * dt +
    D3GDR3R3DP * dp) + ((D3GDR3R3S0 (t v) (xm1mg v) (xm2mg v)) * ds0 + (D3GDR3R3S1 (t v) (xm1mg v) (xm2mg v)) *
    ds1 + (D3GDR3R3S2 (t v) (xm1mg v) (xm2mg v)) * ds2 + (D3GDR3R3S3 (t v) (xm1ni v) (xm2ni v) (xm1mg v) (xm2mg
    v)) * ds3)) v := by
  have nxm1ni := pxm1ni.ne'
  have nxm2ni := pxm2ni.ne'
  have nxm1mg := pxm1mg.ne'
  have nxm2mg := pxm2mg.ne'
  try simp only [D2GDR3R3, D3GDR3R3DT, D3GDR3R3DP, D3GDR0R0R1, D3GDR3R3R3, D3GDR4R0R0, D3GDR3R3S0, D3GDR3R3S1, D3GDR3R3S2, D3GDR3R3S3, zero_mul, mul_zero, add_zero, zero_add, sub_zero]
  have hGR4R4 := k_GR4R4 hp
  refine HasDerivAt.congr_deriv (by hdq) ?_
  ring

lemma c_D2GDR3R4 {t p r0 r1 r2 r3 r4 s0 s1 s2 s3 xm2mg : ℝ → ℝ} {v dt dp dr0 dr1 dr2 dr3 dr4 ds0 ds1 ds2 ds3 : ℝ} (ht :
    HasDerivAt t dt v) (hp : HasDerivAt p dp v) (hr0 : HasDerivAt r0 dr0 v) (hr1 : HasDerivAt r1 dr1 v) (hr2 :
    HasDerivAt r2 dr2 v) (hr3 : HasDerivAt r3 dr3 v) (hr4 : HasDerivAt r4 dr4 v) (hs0 : HasDerivAt s0 ds0 v)
    (hs1 : HasDerivAt s1 ds1 v) (hs2 : HasDerivAt s2 ds2 v) (hs3 : HasDerivAt s3 ds3 v) (hxm2mg : HasDerivAt
    xm2mg ((-(1) / 2) * dr0 + (-(1) / 2) * dr1 + (-(1) / 2) * dr2 + (-(1) / 2) * dr3 + (-1) * dr4 + (-(1) / 2) *
    ds0 + (-(1) / 2) * ds1 + (1 / 2) * ds2 + (1 / 2) * ds3) v) (pxm2mg : 0 < xm2mg v) :
    HasDerivAt (fun v => D2GDR3R4 (t v) (p v) (xm2mg v))
    (((D3GDR4R0R0 (t v) (xm2mg v)) * dr0 + (D3GDR4R0R0 (t v) (xm2mg v)) * dr1 + (D3GDR4R0R0 (t v) (xm2mg v)) *
    dr2 + (D3GDR4R0R0 (t v) (xm2mg v)) * dr3 + (D3GDR4R4R0 (t v) (xm2mg v)) * dr4) + ((D3GDR3R4DT (xm2mg v)) *
    dt + D3GDR3R4DP * dp) + ((D3GDR3R4S0 (t v) (xm2mg v)) * ds0 + (D3GDR3R4S1 (t v) (xm2mg v)) * ds1 +
    (D3GDR3R4S2 (t v) (xm2mg v)) * ds2 + (D3GDR3R4S3 (t v) (xm2mg v)) * ds3)) v := by
  have nxm2mg := pxm2mg.ne'
  try simp only [D2GDR3R4, D3GDR3R4DT, D3GDR3R4DP, D3GDR4R0R0, D3GDR4R4R0, D3GDR3R4S0, D3GDR3R4S1, D3GDR3R4S2, D3GDR3R4S3, zero_mul, mul_zero, add_zero, zero_add, sub_zero]
  have hGR4R5 := k_GR4R5 hp
  refine HasDerivAt.congr_deriv (by hdq) ?_
  ring

lemma c_D2GDR3S0 {t p r0 r1 r2 r3 r4 s0 s1 s2 s3 xm1mg xm2mg : ℝ → ℝ} {v dt dp dr0 dr1 dr2 dr3 dr4 ds0 ds1 ds2 ds3 : ℝ} (ht :
    HasDerivAt t dt v) (hp : HasDerivAt p dp v) (hr0 : HasDerivAt r0 dr0 v) (hr1 : HasDerivAt r1 dr1 v) (hr2 :
    HasDerivAt r2 dr2 v) (hr3 : HasDerivAt r3 dr3 v) (hr4 : HasDerivAt r4 dr4 v) (hs0 : HasDerivAt s0 ds0 v)
    (hs1 : HasDerivAt s1 ds1 v) (hs2 : HasDerivAt s2 ds2 v) (hs3 : HasDerivAt s3 ds3 v) (hxm1mg : HasDerivAt
    xm1mg ((-(1) / 2) * dr0 + (-(1) / 2) * dr1 + (-(1) / 2) * dr2 + (-(1) / 2) * dr3 + (1 / 2) * ds0 + (1 / 2) *
    ds1 + (-(1) / 2) * ds2 + (-(1) / 2) * ds3) v) (pxm1mg : 0 < xm1mg v) (hxm2mg : HasDerivAt xm2mg ((-(1) / 2)
    * dr0 + (-(1) / 2) * dr1 + (-(1) / 2) * dr2 + (-(1) / 2) * dr3 + (-1) * dr4 + (-(1) / 2) * ds0 + (-(1) / 2)
    * ds1 + (1 / 2) * ds2 + (1 / 2) * ds3) v) (pxm2mg : 0 < xm2mg v) :
    HasDerivAt (fun v => D2GDR3S0 (t v) (p v) (xm1mg v) (xm2mg v))
    (((D3GDR0R3S0 (t v) (xm1mg v) (xm2mg v)) * dr0 + (D3GDR1R3S0 (t v) (xm1mg v) (xm2mg v)) * dr1 + (D3GDR2R3S0
    (t v) (xm1mg v) (xm2mg v)) * dr2 + (D3GDR3R3S0 (t v) (xm1mg v) (xm2mg v)) * dr3 + (D3GDR3R4S0 (t v) (xm2mg
    v)) * dr4) + ((D3GDR3S0DT (xm1mg v) (xm2mg v)) * dt + D3GDR3S0DP * dp) + ((D3GDR3S0S0 (t v) (xm1mg v) (xm2mg
    v)) * ds0 + (D3GDR3S0S1 (t v) (xm1mg v) (xm2mg v)) * ds1 + (D3GDR3S0S2 (t v) (xm1mg v) (xm2mg v)) * ds2 +
    (D3GDR3S0S3 (t v) (xm1mg v) (xm2mg v)) * ds3)) v := by
  have nxm1mg := pxm1mg.ne'
  have nxm2mg := pxm2mg.ne'
  try simp only [D2GDR3S0, D3GDR3S0DT, D3GDR3S0DP, D3GDR0R3S0, D3GDR1R3S0, D3GDR2R3S0, D3GDR3R3S0, D3GDR3R4S0, D3GDR3S0S0, D3GDR3S0S1, D3GDR3S0S2, D3GDR3S0S3, zero_mul, mul_zero, add_zero, zero_add, sub_zero]
  have hGR4S1 := k_GR4S1 hp
  refine HasDerivAt.congr_deriv (by hdq) ?_
  ring

lemma c_D2GDR3S1 {t p r0 r1 r2 r3 r4 s0 s1 s2 s3 xm1mg xm2mg : ℝ → ℝ} {v dt dp dr0 dr1 dr2 dr3 dr4 ds0 ds1 ds2 ds3 : ℝ} (ht :
    HasDerivAt t dt v) (hp : HasDerivAt p dp v) (hr0 : HasDerivAt r0 dr0 v) (hr1 : HasDerivAt r1 dr1 v) (hr2 :
    HasDerivAt r2 dr2 v) (hr3 : HasDerivAt r3 dr3 v) (hr4 : HasDerivAt r4 dr4 v) (hs0 : HasDerivAt s0 ds0 v)
    (hs1 : HasDerivAt s1 ds1 v) (hs2 : HasDerivAt s2 ds2 v) (hs3 : HasDerivAt s3 ds3 v) (hxm1mg : HasDerivAt
    xm1mg ((-(1) / 2) * dr0 + (-(1) / 2) * dr1 + (-(1) / 2) * dr2 + (-(1) / 2) * dr3 + (1 / 2) * ds0 + (1 / 2) *
    ds1 + (-(1) / 2) * ds2 + (-(1) / 2) * ds3) v) (pxm1mg : 0 < xm1mg v) (hxm2mg : HasDerivAt xm2mg ((-(1) / 2)
    * dr0 + (-(1) / 2) * dr1 + (-(1) / 2) * dr2 + (-(1) / 2) * dr3 + (-1) * dr4 + (-(1) / 2) * ds0 + (-(1) / 2)
    * ds1 + (1 / 2) * ds2 + (1 / 2) * ds3) v) (pxm2mg : 0 < xm2mg v) :
    HasDerivAt (fun v => D2GDR3S1 (t v) (p v) (xm1mg v) (xm2mg v))
    (((D3GDR0R3S1 (t v) (xm1mg v) (xm2mg v)) * dr0 + (D3GDR1R3S1 (t v) (xm1mg v) (xm2mg v)) * dr1 + (D3GDR2R3S1
    (t v) (xm1mg v) (xm2mg v)) * dr2 + (D3GDR3R3S1 (t v) (xm1mg v) (xm2mg v)) * dr3 + (D3GDR3R4S1 (t v) (xm2mg
    v)) * dr4) + ((D3GDR3S1DT (xm1mg v) (xm2mg v)) * dt + D3GDR3S1DP * dp) + ((D3GDR3S0S1 (t v) (xm1mg v) (xm2mg
    v)) * ds0 + (D3GDR3S1S1 (t v) (xm1mg v) (xm2mg v)) * ds1 + (D3GDR3S1S2 (t v) (xm1mg v) (xm2mg v)) * ds2 +
    (D3GDR3S1S3 (t v) (xm1mg v) (xm2mg v)) * ds3)) v := by
  have nxm1mg := pxm1mg.ne'
  have nxm2mg := pxm2mg.ne'
  try simp only [D2GDR3S1, D3GDR3S1DT, D3GDR3S1DP, D3GDR0R3S1, D3GDR1R3S1, D3GDR2R3S1, D3GDR3R3S1, D3GDR3R4S1, D3GDR3S0S1, D3GDR3S1S1, D3GDR3S1S2, D3GDR3S1S3, zero_mul, mul_zero, add_zero, zero_add, sub_zero]
  have hGR4S2 := k_GR4S2 hp
  refine HasDerivAt.congr_deriv (by hdq) ?_
  ring

lemma c_D2GDR3S2 {t p r0 r1 r2 r3 r4 s0 s1 s2 s3 xm1mg xm2mg : ℝ → ℝ} {v dt dp dr0 dr1 dr2 dr3 dr4 ds0 ds1 ds2 ds3 : ℝ} (ht :
    HasDerivAt t dt v) (hp : HasDerivAt p dp v) (hr0 : HasDerivAt r0 dr0 v) (hr1 : HasDerivAt r1 dr1 v) (hr2 :
    HasDerivAt r2 dr2 v) (hr3 : HasDerivAt r3 dr3 v) (hr4 : HasDerivAt r4 dr4 v) (hs0 : HasDerivAt s0 ds0 v)
    (hs1 : HasDerivAt s1 ds1 v) (hs2 : HasDerivAt s2 ds2 v) (hs3 : HasDerivAt s3 ds3 v) (hxm1mg : HasDerivAt
    xm1mg ((-(1) / 2) * dr0 + (-(1) / 2) * dr1 + (-(1) / 2) * dr2 + (-(1) / 2) * dr3 + (1 / 2) * ds0 + (1 / 2) *
    ds1 + (-(1) / 2) * ds2 + (-(1) / 2) * ds3) v) (pxm1mg : 0 < xm1mg v) (hxm2mg : HasDerivAt xm2mg ((-(1) / 2)
    * dr0 + (-(1) / 2) * dr1 + (-(1) / 2) * dr2 + (-(1) / 2) * dr3 + (-1) * dr4 + (-(1) / 2) * ds0 + (-(1) / 2)
    * ds1 + (1 / 2) * ds2 + (1 / 2) * ds3) v) (pxm2mg : 0 < xm2mg v) :
    HasDerivAt (fun v => D2GDR3S2 (t v) (p v) (xm1mg v) (xm2mg v))
    (((D3GDR0R3S2 (t v) (xm1mg v) (xm2mg v)) * dr0 + (D3GDR1R3S2 (t v) (xm1mg v) (xm2mg v)) * dr1 + (D3GDR2R3S2
    (t v) (xm1mg v) (xm2mg v)) * dr2 + (D3GDR3R3S2 (t v) (xm1mg v) (xm2mg v)) * dr3 + (D3GDR3R4S2 (t v) (xm2mg
    v)) * dr4) + ((D3GDR3S2DT (xm1mg v) (xm2mg v)) * dt + D3GDR3S2DP * dp) + ((D3GDR3S0S2 (t v) (xm1mg v) (xm2mg
    v)) * ds0 + (D3GDR3S1S2 (t v) (xm1mg v) (xm2mg v)) * ds1 + (D3GDR3S2S2 (t v) (xm1mg v) (xm2mg v)) * ds2 +
    (D3GDR3S2S3 (t v) (xm1mg v) (xm2mg v)) * ds3)) v := by
  have nxm1mg := pxm1mg.ne'
  have nxm2mg := pxm2mg.ne'
  try simp only [D2GDR3S2, D3GDR3S2DT, D3GDR3S2DP, D3GDR0R3S2, D3GDR1R3S2, D3GDR2R3S2, D3GDR3R3S2, D3GDR3R4S2, D3GDR3S0S2, D3GDR3S1S2, D3GDR3S2S2, D3GDR3S2S3, zero_mul, mul_zero, add_zero, zero_add, sub_zero]
  have hGR4S3 := k_GR4S3 hp
  refine HasDerivAt.congr_deriv (by hdq) ?_
  ring

lemma c_D2GDR3S3 {t p r0 r1 r2 r3 r4 s0 s1 s2 s3 xm1ni xm2ni xm1mg xm2mg : ℝ → ℝ} {v dt dp dr0 dr1 dr2 dr3 dr4 ds0 ds1 ds2
    ds3 : ℝ} (ht : HasDerivAt t dt v) (hp : HasDerivAt p dp v) (hr0 : HasDerivAt r0 dr0 v) (hr1 : HasDerivAt r1
    dr1 v) (hr2 : HasDerivAt r2 dr2 v) (hr3 : HasDerivAt r3 dr3 v) (hr4 : HasDerivAt r4 dr4 v) (hs0 : HasDerivAt
    s0 ds0 v) (hs1 : HasDerivAt s1 ds1 v) (hs2 : HasDerivAt s2 ds2 v) (hs3 : HasDerivAt s3 ds3 v) (hxm1ni :
    HasDerivAt xm1ni ((1 / 2) * dr3 + (1 / 2) * ds3) v) (pxm1ni : 0 < xm1ni v) (hxm2ni : HasDerivAt xm2ni ((1 /
    2) * dr3 + (-(1) / 2) * ds3) v) (pxm2ni : 0 < xm2ni v) (hxm1mg : HasDerivAt xm1mg ((-(1) / 2) * dr0 + (-(1)
    / 2) * dr1 + (-(1) / 2) * dr2 + (-(1) / 2) * dr3 + (1 / 2) * ds0 + (1 / 2) * ds1 + (-(1) / 2) * ds2 + (-(1)
    / 2) * ds3) v) (pxm1mg : 0 < xm1mg v) (hxm2mg : HasDerivAt xm2mg ((-(1) / 2) * dr0 + (-(1) / 2) * dr1 +
    (-(1) / 2) * dr2 + (-(1) / 2) * dr3 + (-1) * dr4 + (-(1) / 2) * ds0 + (-(1) / 2) * ds1 + (1 / 2) * ds2 + (1
    / 2) * ds3) v) (pxm2mg : 0 < xm2mg v) :
    HasDerivAt (fun v => D2GDR3S3 (t v) (p v) (xm1ni v) (xm2ni v) (xm1mg v) (xm2mg v))
    (((D3GDR0R3S3 (t v) (xm1mg v) (xm2mg v)) * dr0 + (D3GDR1R3S3 (t v) (xm1mg v) (xm2mg v)) * dr1 + (D3GDR2R3S3
    (t v) (xm1mg v) (xm2mg v)) * dr2 + (D3GDR3R3S3 (t v) (xm1ni v) (xm2ni v) (xm1mg v) (xm2mg v)) * dr3 +
    (D3GDR3R4S3 (t v) (xm2mg v)) * dr4) + ((D3GDR3S3DT (xm1ni v) (xm2ni v) (xm1mg v) (xm2mg v)) * dt +
    D3GDR3S3DP * dp) + ((D3GDR3S0S3 (t v) (xm1mg v) (xm2mg v)) * ds0 + (D3GDR3S1S3 (t v) (xm1mg v) (xm2mg v)) *
    ds1 + (D3GDR3S2S3 (t v) (xm1mg v) (xm2mg v)) * ds2 + (D3GDR3S3S3 (t v) (xm1ni v) (xm2ni v) (xm1mg v) (xm2mg
    v)) * ds3)) v := by
  have nxm1ni := pxm1ni.ne'
  have nxm2ni := pxm2ni.ne'
  have nxm1mg := pxm1mg.ne'
  have nxm2mg := pxm2mg.ne'
  try simp only [D2GDR3S3, D3GDR3S3DT, D3GDR3S3DP, D3GDR0R3S3, D3GDR1R3S3, D3GDR2R3S3, D3GDR3R3S3, D3GDR3R4S3, D3GDR3S0S3, D3GDR3S1S3, D3GDR3S2S3, D3GDR3S3S3, zero_mul, mul_zero, add_zero, zero_add, sub_zero]
  have hGR4S4 := k_GR4S4 hp
  refine HasDerivAt.congr_deriv (by hdq) ?_
  ring

lemma c_D2GDR3DT {t p r0 r1 r2 r3 r4 s0 s1 s2 s3 xm1ni xm2ni xm1mg xm2mg : ℝ → ℝ} {v dt dp dr0 dr1 dr2 dr3 dr4 ds0 ds1 ds2
    ds3 : ℝ} (ht : HasDerivAt t dt v) (hp : HasDerivAt p dp v) (hr0 : HasDerivAt r0 dr0 v) (hr1 : HasDerivAt r1
    dr1 v) (hr2 : HasDerivAt r2 dr2 v) (hr3 : HasDerivAt r3 dr3 v) (hr4 : HasDerivAt r4 dr4 v) (hs0 : HasDerivAt
    s0 ds0 v) (hs1 : HasDerivAt s1 ds1 v) (hs2 : HasDerivAt s2 ds2 v) (hs3 : HasDerivAt s3 ds3 v) (hxm1ni :
    HasDerivAt xm1ni ((1 / 2) * dr3 + (1 / 2) * ds3) v) (pxm1ni : 0 < xm1ni v) (hxm2ni : HasDerivAt xm2ni ((1 /
    2) * dr3 + (-(1) / 2) * ds3) v) (pxm2ni : 0 < xm2ni v) (hxm1mg : HasDerivAt xm1mg ((-(1) / 2) * dr0 + (-(1)
    / 2) * dr1 + (-(1) / 2) * dr2 + (-(1) / 2) * dr3 + (1 / 2) * ds0 + (1 / 2) * ds1 + (-(1) / 2) * ds2 + (-(1)
    / 2) * ds3) v) (pxm1mg : 0 < xm1mg v) (hxm2mg : HasDerivAt xm2mg ((-(1) / 2) * dr0 + (-(1) / 2) * dr1 +
    (-(1) / 2) * dr2 + (-(1) / 2) * dr3 + (-1) * dr4 + (-(1) / 2) * ds0 + (-(1) / 2) * ds1 + (1 / 2) * ds2 + (1
    / 2) * ds3) v) (pxm2mg : 0 < xm2mg v) :
    HasDerivAt (fun v => D2GDR3DT (xm1ni v) (xm2ni v) (xm1mg v) (xm2mg v))
    (((D3GDR0R3DT (xm1mg v) (xm2mg v)) * dr0 + (D3GDR1R3DT (xm1mg v) (xm2mg v)) * dr1 + (D3GDR2R3DT (xm1mg v)
    (xm2mg v)) * dr2 + (D3GDR3R3DT (xm1ni v) (xm2ni v) (xm1mg v) (xm2mg v)) * dr3 + (D3GDR3R4DT (xm2mg v)) *
    dr4) + (D3GDR3DT2 * dt + D3GDR3DTDP * dp) + ((D3GDR3S0DT (xm1mg v) (xm2mg v)) * ds0 + (D3GDR3S1DT (xm1mg v)
    (xm2mg v)) * ds1 + (D3GDR3S2DT (xm1mg v) (xm2mg v)) * ds2 + (D3GDR3S3DT (xm1ni v) (xm2ni v) (xm1mg v) (xm2mg
    v)) * ds3)) v := by
  have nxm1ni := pxm1ni.ne'
  have nxm2ni := pxm2ni.ne'
  have nxm1mg := pxm1mg.ne'
  have nxm2mg := pxm2mg.ne'
  try simp only [D2GDR3DT, D3GDR3DT2, D3GDR3DTDP, D3GDR0R3DT, D3GDR1R3DT, D3GDR2R3DT, D3GDR3R3DT, D3GDR3R4DT, D3GDR3S0DT, D3GDR3S1DT, D3GDR3S2DT, D3GDR3S3DT, zero_mul, mul_zero, add_zero, zero_add, sub_zero]
  refine HasDerivAt.congr_deriv (by hdq) ?_
  try simp only [log4 nxm1ni nxm2ni nxm1mg nxm2mg]
  ring

lemma c_D2GDR3DP {t p r0 r1 r2 r3 r4 s0 s1 s2 s3 : ℝ → ℝ} {v dt dp dr0 dr1 dr2 dr3 dr4 ds0 ds1 ds2 ds3 : ℝ} (ht : HasDerivAt
    t dt v) (hp : HasDerivAt p dp v) (hr0 : HasDerivAt r0 dr0 v) (hr1 : HasDerivAt r1 dr1 v) (hr2 : HasDerivAt
    r2 dr2 v) (hr3 : HasDerivAt r3 dr3 v) (hr4 : HasDerivAt r4 dr4 v) (hs0 : HasDerivAt s0 ds0 v) (hs1 :
    HasDerivAt s1 ds1 v) (hs2 : HasDerivAt s2 ds2 v) (hs3 : HasDerivAt s3 ds3 v) :
    HasDerivAt (fun v => D2GDR3DP (r0 v) (r1 v) (r2 v) (r3 v) (r4 v) (s0 v) (s1 v) (s2 v) (s3 v))
    ((D3GDR0R3DP * dr0 + D3GDR1R3DP * dr1 + D3GDR2R3DP * dr2 + D3GDR3R3DP * dr3 + D3GDR3R4DP * dr4) + (D3GDR3DTDP
    * dt + D3GDR3DP2 * dp) + (D3GDR3S0DP * ds0 + D3GDR3S1DP * ds1 + D3GDR3S2DP * ds2 + D3GDR3S3DP * ds3)) v := by
  try simp only [D2GDR3DP, D3GDR3DTDP, D3GDR3DP2, D3GDR0R3DP, D3GDR1R3DP, D3GDR2R3DP, D3GDR3R3DP, D3GDR3R4DP, D3GDR3S0DP, D3GDR3S1DP, D3GDR3S2DP, D3GDR3S3DP, zero_mul, mul_zero, add_zero, zero_add, sub_zero]
  refine HasDerivAt.congr_deriv (by hdq) ?_
  ring

lemma c_D2GDR4R4 {t p r0 r1 r2 r3 r4 s0 s1 s2 s3 xm2ca xm2mg : ℝ → ℝ} {v dt dp dr0 dr1 dr2 dr3 dr4 ds0 ds1 ds2 ds3 : ℝ} (ht :
    HasDerivAt t dt v) (hp : HasDerivAt p dp v) (hr0 : HasDerivAt r0 dr0 v) (hr1 : HasDerivAt r1 dr1 v) (hr2 :
    HasDerivAt r2 dr2 v) (hr3 : HasDerivAt r3 dr3 v) (hr4 : HasDerivAt r4 dr4 v) (hs0 : HasDerivAt s0 ds0 v)
    (hs1 : HasDerivAt s1 ds1 v) (hs2 : HasDerivAt s2 ds2 v) (hs3 : HasDerivAt s3 ds3 v) (hxm2ca : HasDerivAt
    xm2ca (1 * dr4) v) (pxm2ca : 0 < xm2ca v) (hxm2mg : HasDerivAt xm2mg ((-(1) / 2) * dr0 + (-(1) / 2) * dr1 +
    (-(1) / 2) * dr2 + (-(1) / 2) * dr3 + (-1) * dr4 + (-(1) / 2) * ds0 + (-(1) / 2) * ds1 + (1 / 2) * ds2 + (1
    / 2) * ds3) v) (pxm2mg : 0 < xm2mg v) :
    HasDerivAt (fun v => D2GDR4R4 (t v) (p v) (xm2ca v) (xm2mg v))
    (((D3GDR4R4R0 (t v) (xm2mg v)) * dr0 + (D3GDR4R4R0 (t v) (xm2mg v)) * dr1 + (D3GDR4R4R0 (t v) (xm2mg v)) *
    dr2 + (D3GDR4R4R0 (t v) (xm2mg v)) * dr3 + (D3GDR4R4R4 (t v) (xm2ca v) (xm2mg v)) * dr4) + ((D3GDR4R4DT
    (xm2ca v) (xm2mg v)) * dt + D3GDR4R4DP * dp) + ((D3GDR4R4S0 (t v) (xm2mg v)) * ds0 + (D3GDR4R4S1 (t v)
    (xm2mg v)) * ds1 + (D3GDR4R4S2 (t v) (xm2mg v)) * ds2 + (D3GDR4R4S3 (t v) (xm2mg v)) * ds3)) v := by
  have nxm2ca := pxm2ca.ne'
  have nxm2mg := pxm2mg.ne'
  try simp only [D2GDR4R4, D3GDR4R4DT, D3GDR4R4DP, D3GDR4R4R0, D3GDR4R4R4, D3GDR4R4S0, D3GDR4R4S1, D3GDR4R4S2, D3GDR4R4S3, zero_mul, mul_zero, add_zero, zero_add, sub_zero]
  have hGR5R5 := k_GR5R5 hp
  refine HasDerivAt.congr_deriv (by hdq) ?_
  ring

lemma c_D2GDR4S0 {t p r0 r1 r2 r3 r4 s0 s1 s2 s3 xm2mg : ℝ → ℝ} {v dt dp dr0 dr1 dr2 dr3 dr4 ds0 ds1 ds2 ds3 : ℝ} (ht :
    HasDerivAt t dt v) (hp : HasDerivAt p dp v) (hr0 : HasDerivAt r0 dr0 v) (hr1 : HasDerivAt r1 dr1 v) (hr2 :
    HasDerivAt r2 dr2 v) (hr3 : HasDerivAt r3 dr3 v) (hr4 : HasDerivAt r4 dr4 v) (hs0 : HasDerivAt s0 ds0 v)
    (hs1 : HasDerivAt s1 ds1 v) (hs2 : HasDerivAt s2 ds2 v) (hs3 : HasDerivAt s3 ds3 v) (hxm2mg : HasDerivAt
    xm2mg ((-(1) / 2) * dr0 + (-(1) / 2) * dr1 + (-(1) / 2) * dr2 + (-(1) / 2) * dr3 + (-1) * dr4 + (-(1) / 2) *
    ds0 + (-(1) / 2) * ds1 + (1 / 2) * ds2 + (1 / 2) * ds3) v) (pxm2mg : 0 < xm2mg v) :
    HasDerivAt (fun v => D2GDR4S0 (t v) (p v) (xm2mg v))
    (((D3GDR0R4S0 (t v) (xm2mg v)) * dr0 + (D3GDR1R4S0 (t v) (xm2mg v)) * dr1 + (D3GDR2R4S0 (t v) (xm2mg v)) *
    dr2 + (D3GDR3R4S0 (t v) (xm2mg v)) * dr3 + (D3GDR4R4S0 (t v) (xm2mg v)) * dr4) + ((D3GDR4S0DT (xm2mg v)) *
    dt + D3GDR4S0DP * dp) + ((D3GDR4S0S0 (t v) (xm2mg v)) * ds0 + (D3GDR4S0S1 (t v) (xm2mg v)) * ds1 +
    (D3GDR4S0S2 (t v) (xm2mg v)) * ds2 + (D3GDR4S0S3 (t v) (xm2mg v)) * ds3)) v := by
  have nxm2mg := pxm2mg.ne'
  try simp only [D2GDR4S0, D3GDR4S0DT, D3GDR4S0DP, D3GDR0R4S0, D3GDR1R4S0, D3GDR2R4S0, D3GDR3R4S0, D3GDR4R4S0, D3GDR4S0S0, D3GDR4S0S1, D3GDR4S0S2, D3GDR4S0S3, zero_mul, mul_zero, add_zero, zero_add, sub_zero]
  have hGR5S1 := k_GR5S1 hp
  refine HasDerivAt.congr_deriv (by hdq) ?_
  ring

lemma c_D2GDR4S1 {t p r0 r1 r2 r3 r4 s0 s1 s2 s3 xm2mg : ℝ → ℝ} {v dt dp dr0 dr1 dr2 dr3 dr4 ds0 ds1 ds2 ds3 : ℝ} (ht :
    HasDerivAt t dt v) (hp : HasDerivAt p dp v) (hr0 : HasDerivAt r0 dr0 v) (hr1 : HasDerivAt r1 dr1 v) (hr2 :
    HasDerivAt r2 dr2 v) (hr3 : HasDerivAt r3 dr3 v) (hr4 : HasDerivAt r4 dr4 v) (hs0 : HasDerivAt s0 ds0 v)
    (hs1 : HasDerivAt s1 ds1 v) (hs2 : HasDerivAt s2 ds2 v) (hs3 : HasDerivAt s3 ds3 v) (hxm2mg : HasDerivAt
    xm2mg ((-(1) / 2) * dr0 + (-(1) / 2) * dr1 + (-(1) / 2) * dr2 + (-(1) / 2) * dr3 + (-1) * dr4 + (-(1) / 2) *
    ds0 + (-(1) / 2) * ds1 + (1 / 2) * ds2 + (1 / 2) * ds3) v) (pxm2mg : 0 < xm2mg v) :
    HasDerivAt (fun v => D2GDR4S1 (t v) (p v) (xm2mg v))
    (((D3GDR0R4S1 (t v) (xm2mg v)) * dr0 + (D3GDR1R4S1 (t v) (xm2mg v)) * dr1 + (D3GDR2R4S1 (t v) (xm2mg v)) *
    dr2 + (D3GDR3R4S1 (t v) (xm2mg v)) * dr3 + (D3GDR4R4S1 (t v) (xm2mg v)) * dr4) + ((D3GDR4S1DT (xm2mg v)) *
    dt + D3GDR4S1DP * dp) + ((D3GDR4S0S1 (t v) (xm2mg v)) * ds0 + (D3GDR4S1S1 (t v) (xm2mg v)) * ds1 +
    (D3GDR4S1S2 (t v) (xm2mg v)) * ds2 + (D3GDR4S1S3 (t v) (xm2mg v)) * ds3)) v := by
  have nxm2mg := pxm2mg.ne'
  try simp only [D2GDR4S1, D3GDR4S1DT, D3GDR4S1DP, D3GDR0R4S1, D3GDR1R4S1, D3GDR2R4S1, D3GDR3R4S1, D3GDR4R4S1, D3GDR4S0S1, D3GDR4S1S1, D3GDR4S1S2, D3GDR4S1S3, zero_mul, mul_zero, add_zero, zero_add, sub_zero]
  have hGR5S2 := k_GR5S2 hp
  refine HasDerivAt.congr_deriv (by hdq) ?_
  ring

lemma c_D2GDR4S2 {t p r0 r1 r2 r3 r4 s0 s1 s2 s3 xm2mg : ℝ → ℝ} {v dt dp dr0 dr1 dr2 dr3 dr4 ds0 ds1 ds2 ds3 : ℝ} (ht :
    HasDerivAt t dt v) (hp : HasDerivAt p dp v) (hr0 : HasDerivAt r0 dr0 v) (hr1 : HasDerivAt r1 dr1 v) (hr2 :
    HasDerivAt r2 dr2 v) (hr3 : HasDerivAt r3 dr3 v) (hr4 : HasDerivAt r4 dr4 v) (hs0 : HasDerivAt s0 ds0 v)
    (hs1 : HasDerivAt s1 ds1 v) (hs2 : HasDerivAt s2 ds2 v) (hs3 : HasDerivAt s3 ds3 v) (hxm2mg : HasDerivAt
    xm2mg ((-(1) / 2) * dr0 + (-(1) / 2) * dr1 + (-(1) / 2) * dr2 + (-(1) / 2) * dr3 + (-1) * dr4 + (-(1) / 2) *
    ds0 + (-(1) / 2) * ds1 + (1 / 2) * ds2 + (1 / 2) * ds3) v) (pxm2mg : 0 < xm2mg v) :
    HasDerivAt (fun v => D2GDR4S2 (t v) (p v) (xm2mg v))
    (((D3GDR0R4S2 (t v) (xm2mg v)) * dr0 + (D3GDR1R4S2 (t v) (xm2mg v)) * dr1 + (D3GDR2R4S2 (t v) (xm2mg v)) *
    dr2 + (D3GDR3R4S2 (t v) (xm2mg v)) * dr3 + (D3GDR4R4S2 (t v) (xm2mg v)) * dr4) + ((D3GDR4S2DT (xm2mg v)) *
    dt + D3GDR4S2DP * dp) + ((D3GDR4S0S2 (t v) (xm2mg v)) * ds0 + (D3GDR4S1S2 (t v) (xm2mg v)) * ds1 +
    (D3GDR4S2S2 (t v) (xm2mg v)) * ds2 + (D3GDR4S2S3 (t v) (xm2mg v)) * ds3)) v := by
  have nxm2mg := pxm2mg.ne'
  try simp only [D2GDR4S2, D3GDR4S2DT, D3GDR4S2DP, D3GDR0R4S2, D3GDR1R4S2, D3GDR2R4S2, D3GDR3R4S2, D3GDR4R4S2, D3GDR4S0S2, D3GDR4S1S2, D3GDR4S2S2, D3GDR4S2S3, zero_mul, mul_zero, add_zero, zero_add, sub_zero]
  have hGR5S3 := k_GR5S3 hp
  refine HasDerivAt.congr_deriv (by hdq) ?_
  ring

lemma c_D2GDR4S3 {t p r0 r1 r2 r3 r4 s0 s1 s2 s3 xm2mg : ℝ → ℝ} {v dt dp dr0 dr1 dr2 dr3 dr4 ds0 ds1 ds2 ds3 : ℝ} (ht :
    HasDerivAt t dt v) (hp : HasDerivAt p dp v) (hr0 : HasDerivAt r0 dr0 v) (hr1 : HasDerivAt r1 dr1 v) (hr2 :
    HasDerivAt r2 dr2 v) (hr3 : HasDerivAt r3 dr3 v) (hr4 : HasDerivAt r4 dr4 v) (hs0 : HasDerivAt s0 ds0 v)
    (hs1 : HasDerivAt s1 ds1 v) (hs2 : HasDerivAt s2 ds2 v) (hs3 : HasDerivAt s3 ds3 v) (hxm2mg : HasDerivAt
    xm2mg ((-(1) / 2) * dr0 + (-(1) / 2) * dr1 + (-(1) / 2) * dr2 + (-(1) / 2) * dr3 + (-1) * dr4 + (-(1) / 2) *
    ds0 + (-(1) / 2) * ds1 + (1 / 2) * ds2 + (1 / 2) * ds3) v) (pxm2mg : 0 < xm2mg v) :
    HasDerivAt (fun v => D2GDR4S3 (t v) (p v) (xm2mg v))
    (((D3GDR0R4S3 (t v) (xm2mg v)) * dr0 + (D3GDR1R4S3 (t v) (xm2mg v)) * dr1 + (D3GDR2R4S3 (t v) (xm2mg v)) *
    dr2 + (D3GDR3R4S3 (t v) (xm2mg v)) * dr3 + (D3GDR4R4S3 (t v) (xm2mg v)) * dr4) + ((D3GDR4S3DT (xm2mg v)) *
    dt + D3GDR4S3DP * dp) + ((D3GDR4S0S3 (t v) (xm2mg v)) * ds0 + (D3GDR4S1S3 (t v) (xm2mg v)) * ds1 +
    (D3GDR4S2S3 (t v) (xm2mg v)) * ds2 + (D3GDR4S3S3 (t v) (xm2mg v)) * ds3)) v := by
  have nxm2mg := pxm2mg.ne'
  try simp only [D2GDR4S3, D3GDR4S3DT, D3GDR4S3DP, D3GDR0R4S3, D3GDR1R4S3, D3GDR2R4S3, D3GDR3R4S3, D3GDR4R4S3, D3GDR4S0S3, D3GDR4S1S3, D3GDR4S2S3, D3GDR4S3S3, zero_mul, mul_zero, add_zero, zero_add, sub_zero]
  have hGR5S4 := k_GR5S4 hp
  refine HasDerivAt.congr_deriv (by hdq) ?_
  ring

lemma c_D2GDR4DT {t p r0 r1 r2 r3 r4 s0 s1 s2 s3 xm2ca xm2mg : ℝ → ℝ} {v dt dp dr0 dr1 dr2 dr3 dr4 ds0 ds1 ds2 ds3 : ℝ} (ht :
    HasDerivAt t dt v) (hp : HasDerivAt p dp v) (hr0 : HasDerivAt r0 dr0 v) (hr1 : HasDerivAt r1 dr1 v) (hr2 :
    HasDerivAt r2 dr2 v) (hr3 : HasDerivAt r3 dr3 v) (hr4 : HasDerivAt r4 dr4 v) (hs0 : HasDerivAt s0 ds0 v)
    (hs1 : HasDerivAt s1 ds1 v) (hs2 : HasDerivAt s2 ds2 v) (hs3 : HasDerivAt s3 ds3 v) (hxm2ca : HasDerivAt
    xm2ca (1 * dr4) v) (pxm2ca : 0 < xm2ca v) (hxm2mg : HasDerivAt xm2mg ((-(1) / 2) * dr0 + (-(1) / 2) * dr1 +
    (-(1) / 2) * dr2 + (-(1) / 2) * dr3 + (-1) * dr4 + (-(1) / 2) * ds0 + (-(1) / 2) * ds1 + (1 / 2) * ds2 + (1
    / 2) * ds3) v) (pxm2mg : 0 < xm2mg v) :
    HasDerivAt (fun v => D2GDR4DT (xm2ca v) (xm2mg v))
    (((D3GDR0R4DT (xm2mg v)) * dr0 + (D3GDR1R4DT (xm2mg v)) * dr1 + (D3GDR2R4DT (xm2mg v)) * dr2 + (D3GDR3R4DT
    (xm2mg v)) * dr3 + (D3GDR4R4DT (xm2ca v) (xm2mg v)) * dr4) + (D3GDR4DT2 * dt + D3GDR4DTDP * dp) +
    ((D3GDR4S0DT (xm2mg v)) * ds0 + (D3GDR4S1DT (xm2mg v)) * ds1 + (D3GDR4S2DT (xm2mg v)) * ds2 + (D3GDR4S3DT
    (xm2mg v)) * ds3)) v := by
  have nxm2ca := pxm2ca.ne'
  have nxm2mg := pxm2mg.ne'
  try simp only [D2GDR4DT, D3GDR4DT2, D3GDR4DTDP, D3GDR0R4DT, D3GDR1R4DT, D3GDR2R4DT, D3GDR3R4DT, D3GDR4R4DT, D3GDR4S0DT, D3GDR4S1DT, D3GDR4S2DT, D3GDR4S3DT, zero_mul, mul_zero, add_zero, zero_add, sub_zero]
  refine HasDerivAt.congr_deriv (by hdq) ?_
  try simp only [log2 nxm2ca nxm2mg]
  ring

lemma c_D2GDR4DP {t p r0 r1 r2 r3 r4 s0 s1 s2 s3 : ℝ → ℝ} {v dt dp dr0 dr1 dr2 dr3 dr4 ds0 ds1 ds2 ds3 : ℝ} (ht : HasDerivAt
    t dt v) (hp : HasDerivAt p dp v) (hr0 : HasDerivAt r0 dr0 v) (hr1 : HasDerivAt r1 dr1 v) (hr2 : HasDerivAt
    r2 dr2 v) (hr3 : HasDerivAt r3 dr3 v) (hr4 : HasDerivAt r4 dr4 v) (hs0 : HasDerivAt s0 ds0 v) (hs1 :
    HasDerivAt s1 ds1 v) (hs2 : HasDerivAt s2 ds2 v) (hs3 : HasDerivAt s3 ds3 v) :
    HasDerivAt (fun v => D2GDR4DP (r0 v) (r1 v) (r2 v) (r3 v) (r4 v) (s0 v) (s1 v) (s2 v) (s3 v))
    ((D3GDR0R4DP * dr0 + D3GDR1R4DP * dr1 + D3GDR2R4DP * dr2 + D3GDR3R4DP * dr3 + D3GDR4R4DP * dr4) + (D3GDR4DTDP
    * dt + D3GDR4DP2 * dp) + (D3GDR4S0DP * ds0 + D3GDR4S1DP * ds1 + D3GDR4S2DP * ds2 + D3GDR4S3DP * ds3)) v := by
  try simp only [D2GDR4DP, D3GDR4DTDP, D3GDR4DP2, D3GDR0R4DP, D3GDR1R4DP, D3GDR2R4DP, D3GDR3R4DP, D3GDR4R4DP, D3GDR4S0DP, D3GDR4S1DP, D3GDR4S2DP, D3GDR4S3DP, zero_mul, mul_zero, add_zero, zero_add, sub_zero]
  refine HasDerivAt.congr_deriv (by hdq) ?_
  ring

lemma c_D2GDS0S0 {t p r0 r1 r2 r3 r4 s0 s1 s2 s3 xm1mn xm2mn xm1mg xm2mg : ℝ → ℝ} {v dt dp dr0 dr1 dr2 dr3 dr4 ds0 ds1 ds2
    ds3 : ℝ} (ht : HasDerivAt t dt v) (hp : HasDerivAt p dp v) (hr0 : HasDerivAt r0 dr0 v) (hr1 : HasDerivAt r1
    dr1 v) (hr2 : HasDerivAt r2 dr2 v) (hr3 : HasDerivAt r3 dr3 v) (hr4 : HasDerivAt r4 dr4 v) (hs0 : HasDerivAt
    s0 ds0 v) (hs1 : HasDerivAt s1 ds1 v) (hs2 : HasDerivAt s2 ds2 v) (hs3 : HasDerivAt s3 ds3 v) (hxm1mn :
    HasDerivAt xm1mn ((1 / 2) * dr0 + (-(1) / 2) * ds0) v) (pxm1mn : 0 < xm1mn v) (hxm2mn : HasDerivAt xm2mn ((1
    / 2) * dr0 + (1 / 2) * ds0) v) (pxm2mn : 0 < xm2mn v) (hxm1mg : HasDerivAt xm1mg ((-(1) / 2) * dr0 + (-(1) /
    2) * dr1 + (-(1) / 2) * dr2 + (-(1) / 2) * dr3 + (1 / 2) * ds0 + (1 / 2) * ds1 + (-(1) / 2) * ds2 + (-(1) /
    2) * ds3) v) (pxm1mg : 0 < xm1mg v) (hxm2mg : HasDerivAt xm2mg ((-(1) / 2) * dr0 + (-(1) / 2) * dr1 + (-(1)
    / 2) * dr2 + (-(1) / 2) * dr3 + (-1) * dr4 + (-(1) / 2) * ds0 + (-(1) / 2) * ds1 + (1 / 2) * ds2 + (1 / 2) *
    ds3) v) (pxm2mg : 0 < xm2mg v) :
    HasDerivAt (fun v => D2GDS0S0 (t v) (p v) (xm1mn v) (xm2mn v) (xm1mg v) (xm2mg v))
    (((D3GDR0S0S0 (t v) (xm1mn v) (xm2mn v) (xm1mg v) (xm2mg v)) * dr0 + (D3GDR1S0S0 (t v) (xm1mg v) (xm2mg v)) *
    dr1 + (D3GDR2S0S0 (t v) (xm1mg v) (xm2mg v)) * dr2 + (D3GDR3S0S0 (t v) (xm1mg v) (xm2mg v)) * dr3 +
    (D3GDR4S0S0 (t v) (xm2mg v)) * dr4) + ((D3GDS0S0DT (xm1mn v) (xm2mn v) (xm1mg v) (xm2mg v)) * dt +
    D3GDS0S0DP * dp) + ((D3GDS0S0S0 (t v) (xm1mn v) (xm2mn v) (xm1mg v) (xm2mg v)) * ds0 + (D3GDS0S0S1 (t v)
    (xm1mg v) (xm2mg v)) * ds1 + (D3GDS0S0S2 (t v) (xm1mg v) (xm2mg v)) * ds2 + (D3GDS0S0S3 (t v) (xm1mg v)
    (xm2mg v)) * ds3)) v := by
  have nxm1mn := pxm1mn.ne'
  have nxm2mn := pxm2mn.ne'
  have nxm1mg := pxm1mg.ne'
  have nxm2mg := pxm2mg.ne'
  try simp only [D2GDS0S0, D3GDS0S0DT, D3GDS0S0DP, D3GDR0S0S0, D3GDR1S0S0, D3GDR2S0S0, D3GDR3S0S0, D3GDR4S0S0, D3GDS0S0S0, D3GDS0S0S1, D3GDS0S0S2, D3GDS0S0S3, zero_mul, mul_zero, add_zero, zero_add, sub_zero]
  have hGS1S1 := k_GS1S1 hp
  refine HasDerivAt.congr_deriv (by hdq) ?_
  ring

lemma c_D2GDS0S1 {t p r0 r1 r2 r3 r4 s0 s1 s2 s3 xm1mg xm2mg : ℝ → ℝ} {v dt dp dr0 dr1 dr2 dr3 dr4 ds0 ds1 ds2 ds3 : ℝ} (ht :
    HasDerivAt t dt v) (hp : HasDerivAt p dp v) (hr0 : HasDerivAt r0 dr0 v) (hr1 : HasDerivAt r1 dr1 v) (hr2 :
    HasDerivAt r2 dr2 v) (hr3 : HasDerivAt r3 dr3 v) (hr4 : HasDerivAt r4 dr4 v) (hs0 : HasDerivAt s0 ds0 v)
    (hs1 : HasDerivAt s1 ds1 v) (hs2 : HasDerivAt s2 ds2 v) (hs3 : HasDerivAt s3 ds3 v) (hxm1mg : HasDerivAt
    xm1mg ((-(1) / 2) * dr0 + (-(1) / 2) * dr1 + (-(1) / 2) * dr2 + (-(1) / 2) * dr3 + (1 / 2) * ds0 + (1 / 2) *
    ds1 + (-(1) / 2) * ds2 + (-(1) / 2) * ds3) v) (pxm1mg : 0 < xm1mg v) (hxm2mg : HasDerivAt xm2mg ((-(1) / 2)
    * dr0 + (-(1) / 2) * dr1 + (-(1) / 2) * dr2 + (-(1) / 2) * dr3 + (-1) * dr4 + (-(1) / 2) * ds0 + (-(1) / 2)
    * ds1 + (1 / 2) * ds2 + (1 / 2) * ds3) v) (pxm2mg : 0 < xm2mg v) :
    HasDerivAt (fun v => D2GDS0S1 (t v) (p v) (xm1mg v) (xm2mg v))
    (((D3GDR0S0S1 (t v) (xm1mg v) (xm2mg v)) * dr0 + (D3GDR1S0S1 (t v) (xm1mg v) (xm2mg v)) * dr1 + (D3GDR2S0S1
    (t v) (xm1mg v) (xm2mg v)) * dr2 + (D3GDR3S0S1 (t v) (xm1mg v) (xm2mg v)) * dr3 + (D3GDR4S0S1 (t v) (xm2mg
    v)) * dr4) + ((D3GDS0S1DT (xm1mg v) (xm2mg v)) * dt + D3GDS0S1DP * dp) + ((D3GDS0S0S1 (t v) (xm1mg v) (xm2mg
    v)) * ds0 + (D3GDS0S1S1 (t v) (xm1mg v) (xm2mg v)) * ds1 + (D3GDS0S1S2 (t v) (xm1mg v) (xm2mg v)) * ds2 +
    (D3GDS0S1S3 (t v) (xm1mg v) (xm2mg v)) * ds3)) v := by
  have nxm1mg := pxm1mg.ne'
  have nxm2mg := pxm2mg.ne'
  try simp only [D2GDS0S1, D3GDS0S1DT, D3GDS0S1DP, D3GDR0S0S1, D3GDR1S0S1, D3GDR2S0S1, D3GDR3S0S1, D3GDR4S0S1, D3GDS0S0S1, D3GDS0S1S1, D3GDS0S1S2, D3GDS0S1S3, zero_mul, mul_zero, add_zero, zero_add, sub_zero]
  have hGS1S2 := k_GS1S2 hp
  refine HasDerivAt.congr_deriv (by hdq) ?_
  ring

lemma c_D2GDS0S2 {t p r0 r1 r2 r3 r4 s0 s1 s2 s3 xm1mg xm2mg : ℝ → ℝ} {v dt dp dr0 dr1 dr2 dr3 dr4 ds0 ds1 ds2 ds3 : ℝ} (ht :
    HasDerivAt t dt v) (hp : HasDerivAt p dp v) (hr0 : HasDerivAt r0 dr0 v) (hr1 : HasDerivAt r1 dr1 v) (hr2 :
    HasDerivAt r2 dr2 v) (hr3 : HasDerivAt r3 dr3 v) (hr4 : HasDerivAt r4 dr4 v) (hs0 : HasDerivAt s0 ds0 v)
    (hs1 : HasDerivAt s1 ds1 v) (hs2 : HasDerivAt s2 ds2 v) (hs3 : HasDerivAt s3 ds3 v) (hxm1mg : HasDerivAt
    xm1mg ((-(1) / 2) * dr0 + (-(1) / 2) * dr1 + (-(1) / 2) * dr2 + (-(1) / 2) * dr3 + (1 / 2) * ds0 + (1 / 2) *
    ds1 + (-(1) / 2) * ds2 + (-(1) / 2) * ds3) v) (pxm1mg : 0 < xm1mg v) (hxm2mg : HasDerivAt xm2mg ((-(1) / 2)
    * dr0 + (-(1) / 2) * dr1 + (-(1) / 2) * dr2 + (-(1) / 2) * dr3 + (-1) * dr4 + (-(1) / 2) * ds0 + (-(1) / 2)
    * ds1 + (1 / 2) * ds2 + (1 / 2) * ds3) v) (pxm2mg : 0 < xm2mg v) :
    HasDerivAt (fun v => D2GDS0S2 (t v) (p v) (xm1mg v) (xm2mg v))
    (((D3GDR0S0S2 (t v) (xm1mg v) (xm2mg v)) * dr0 + (D3GDR1S0S2 (t v) (xm1mg v) (xm2mg v)) * dr1 + (D3GDR2S0S2
    (t v) (xm1mg v) (xm2mg v)) * dr2 + (D3GDR3S0S2 (t v) (xm1mg v) (xm2mg v)) * dr3 + (D3GDR4S0S2 (t v) (xm2mg
    v)) * dr4) + ((D3GDS0S2DT (xm1mg v) (xm2mg v)) * dt + D3GDS0S2DP * dp) + ((D3GDS0S0S2 (t v) (xm1mg v) (xm2mg
    v)) * ds0 + (D3GDS0S1S2 (t v) (xm1mg v) (xm2mg v)) * ds1 + (D3GDS0S2S2 (t v) (xm1mg v) (xm2mg v)) * ds2 +
    (D3GDS0S2S3 (t v) (xm1mg v) (xm2mg v)) * ds3)) v := by
  have nxm1mg := pxm1mg.ne'
  have nxm2mg := pxm2mg.ne'
  try simp only [D2GDS0S2, D3GDS0S2DT, D3GDS0S2DP, D3GDR0S0S2, D3GDR1S0S2, D3GDR2S0S2, D3GDR3S0S2, D3GDR4S0S2, D3GDS0S0S2, D3GDS0S1S2, D3GDS0S2S2, D3GDS0S2S3, zero_mul, mul_zero, add_zero, zero_add, sub_zero]
  have hGS1S3 := k_GS1S3 hp
  refine HasDerivAt.congr_deriv (by hdq) ?_
  ring

lemma c_D2GDS0S3 {t p r0 r1 r2 r3 r4 s0 s1 s2 s3 xm1mg xm2mg : ℝ → ℝ} {v dt dp dr0 dr1 dr2 dr3 dr4 ds0 ds1 ds2 ds3 : ℝ} (ht :
    HasDerivAt t dt v) (hp : HasDerivAt p dp v) (hr0 : HasDerivAt r0 dr0 v) (hr1 : HasDerivAt r1 dr1 v) (hr2 :
    HasDerivAt r2 dr2 v) (hr3 : HasDerivAt r3 dr3 v) (hr4 : HasDerivAt r4 dr4 v) (hs0 : HasDerivAt s0 ds0 v)
    (hs1 : HasDerivAt s1 ds1 v) (hs2 : HasDerivAt s2 ds2 v) (hs3 : HasDerivAt s3 ds3 v) (hxm1mg : HasDerivAt
    xm1mg ((-(1) / 2) * dr0 + (-(1) / 2) * dr1 + (-(1) / 2) * dr2 + (-(1) / 2) * dr3 + (1 / 2) * ds0 + (1 / 2) *
    ds1 + (-(1) / 2) * ds2 + (-(1) / 2) * ds3) v) (pxm1mg : 0 < xm1mg v) (hxm2mg : HasDerivAt xm2mg ((-(1) / 2)
    * dr0 + (-(1) / 2) * dr1 + (-(1) / 2) * dr2 + (-(1) / 2) * dr3 + (-1) * dr4 + (-(1) / 2) * ds0 + (-(1) / 2)
    * ds1 + (1 / 2) * ds2 + (1 / 2) * ds3) v) (pxm2mg : 0 < xm2mg v) :
    HasDerivAt (fun v => D2GDS0S3 (t v) (p v) (xm1mg v) (xm2mg v))
    (((D3GDR0S0S3 (t v) (xm1mg v) (xm2mg v)) * dr0 + (D3GDR1S0S3 (t v) (xm1mg v) (xm2mg v)) * dr1 + (D3GDR2S0S3
    (t v) (xm1mg v) (xm2mg v)) * dr2 + (D3GDR3S0S3 (t v) (xm1mg v) (xm2mg v)) * dr3 + (D3GDR4S0S3 (t v) (xm2mg
    v)) * dr4) + ((D3GDS0S3DT (xm1mg v) (xm2mg v)) * dt + D3GDS0S3DP * dp) + ((D3GDS0S0S3 (t v) (xm1mg v) (xm2mg
    v)) * ds0 + (D3GDS0S1S3 (t v) (xm1mg v) (xm2mg v)) * ds1 + (D3GDS0S2S3 (t v) (xm1mg v) (xm2mg v)) * ds2 +
    (D3GDS0S3S3 (t v) (xm1mg v) (xm2mg v)) * ds3)) v := by
  have nxm1mg := pxm1mg.ne'
  have nxm2mg := pxm2mg.ne'
  try simp only [D2GDS0S3, D3GDS0S3DT, D3GDS0S3DP, D3GDR0S0S3, D3GDR1S0S3, D3GDR2S0S3, D3GDR3S0S3, D3GDR4S0S3, D3GDS0S0S3, D3GDS0S1S3, D3GDS0S2S3, D3GDS0S3S3, zero_mul, mul_zero, add_zero, zero_add, sub_zero]
  have hGS1S4 := k_GS1S4 hp
  refine HasDerivAt.congr_deriv (by hdq) ?_
  ring

lemma c_D2GDS0DT {t p r0 r1 r2 r3 r4 s0 s1 s2 s3 xm1mn xm2mn xm1mg xm2mg : ℝ → ℝ} {v dt dp dr0 dr1 dr2 dr3 dr4 ds0 ds1 ds2
    ds3 : ℝ} (ht : HasDerivAt t dt v) (hp : HasDerivAt p dp v) (hr0 : HasDerivAt r0 dr0 v) (hr1 : HasDerivAt r1
    dr1 v) (hr2 : HasDerivAt r2 dr2 v) (hr3 : HasDerivAt r3 dr3 v) (hr4 : HasDerivAt r4 dr4 v) (hs0 : HasDerivAt
    s0 ds0 v) (hs1 : HasDerivAt s1 ds1 v) (hs2 : HasDerivAt s2 ds2 v) (hs3 : HasDerivAt s3 ds3 v) (hxm1mn :
    HasDerivAt xm1mn ((1 / 2) * dr0 + (-(1) / 2) * ds0) v) (pxm1mn : 0 < xm1mn v) (hxm2mn : HasDerivAt xm2mn ((1
    / 2) * dr0 + (1 / 2) * ds0) v) (pxm2mn : 0 < xm2mn v) (hxm1mg : HasDerivAt xm1mg ((-(1) / 2) * dr0 + (-(1) /
    2) * dr1 + (-(1) / 2) * dr2 + (-(1) / 2) * dr3 + (1 / 2) * ds0 + (1 / 2) * ds1 + (-(1) / 2) * ds2 + (-(1) /
    2) * ds3) v) (pxm1mg : 0 < xm1mg v) (hxm2mg : HasDerivAt xm2mg ((-(1) / 2) * dr0 + (-(1) / 2) * dr1 + (-(1)
    / 2) * dr2 + (-(1) / 2) * dr3 + (-1) * dr4 + (-(1) / 2) * ds0 + (-(1) / 2) * ds1 + (1 / 2) * ds2 + (1 / 2) *
    ds3) v) (pxm2mg : 0 < xm2mg v) :
    HasDerivAt (fun v => D2GDS0DT (xm1mn v) (xm2mn v) (xm1mg v) (xm2mg v))
    (((D3GDR0S0DT (xm1mn v) (xm2mn v) (xm1mg v) (xm2mg v)) * dr0 + (D3GDR1S0DT (xm1mg v) (xm2mg v)) * dr1 +
    (D3GDR2S0DT (xm1mg v) (xm2mg v)) * dr2 + (D3GDR3S0DT (xm1mg v) (xm2mg v)) * dr3 + (D3GDR4S0DT (xm2mg v)) *
    dr4) + (D3GDS0DT2 * dt + D3GDS0DTDP * dp) + ((D3GDS0S0DT (xm1mn v) (xm2mn v) (xm1mg v) (xm2mg v)) * ds0 +
    (D3GDS0S1DT (xm1mg v) (xm2mg v)) * ds1 + (D3GDS0S2DT (xm1mg v) (xm2mg v)) * ds2 + (D3GDS0S3DT (xm1mg v)
    (xm2mg v)) * ds3)) v := by
  have nxm1mn := pxm1mn.ne'
  have nxm2mn := pxm2mn.ne'
  have nxm1mg := pxm1mg.ne'
  have nxm2mg := pxm2mg.ne'
  try simp only [D2GDS0DT, D3GDS0DT2, D3GDS0DTDP, D3GDR0S0DT, D3GDR1S0DT, D3GDR2S0DT, D3GDR3S0DT, D3GDR4S0DT, D3GDS0S0DT, D3GDS0S1DT, D3GDS0S2DT, D3GDS0S3DT, zero_mul, mul_zero, add_zero, zero_add, sub_zero]
  refine HasDerivAt.congr_deriv (by hdq) ?_
  try simp only [log4 nxm2mn nxm1mg nxm1mn nxm2mg]
  ring

lemma c_D2GDS0DP {t p r0 r1 r2 r3 r4 s0 s1 s2 s3 : ℝ → ℝ} {v dt dp dr0 dr1 dr2 dr3 dr4 ds0 ds1 ds2 ds3 : ℝ} (ht : HasDerivAt
    t dt v) (hp : HasDerivAt p dp v) (hr0 : HasDerivAt r0 dr0 v) (hr1 : HasDerivAt r1 dr1 v) (hr2 : HasDerivAt
    r2 dr2 v) (hr3 : HasDerivAt r3 dr3 v) (hr4 : HasDerivAt r4 dr4 v) (hs0 : HasDerivAt s0 ds0 v) (hs1 :
    HasDerivAt s1 ds1 v) (hs2 : HasDerivAt s2 ds2 v) (hs3 : HasDerivAt s3 ds3 v) :
    HasDerivAt (fun v => D2GDS0DP (r0 v) (r1 v) (r2 v) (r3 v) (r4 v) (s0 v) (s1 v) (s2 v) (s3 v))
    ((D3GDR0S0DP * dr0 + D3GDR1S0DP * dr1 + D3GDR2S0DP * dr2 + D3GDR3S0DP * dr3 + D3GDR4S0DP * dr4) + (D3GDS0DTDP
    * dt + D3GDS0DP2 * dp) + (D3GDS0S0DP * ds0 + D3GDS0S1DP * ds1 + D3GDS0S2DP * ds2 + D3GDS0S3DP * ds3)) v := by
  try simp only [D2GDS0DP, D3GDS0DTDP, D3GDS0DP2, D3GDR0S0DP, D3GDR1S0DP, D3GDR2S0DP, D3GDR3S0DP, D3GDR4S0DP, D3GDS0S0DP, D3GDS0S1DP, D3GDS0S2DP, D3GDS0S3DP, zero_mul, mul_zero, add_zero, zero_add, sub_zero]
  refine HasDerivAt.congr_deriv (by hdq) ?_
  ring

lemma c_D2GDS1S1 {t p r0 r1 r2 r3 r4 s0 s1 s2 s3 xm1fe xm2fe xm1mg xm2mg : ℝ → ℝ} {v dt dp dr0 dr1 dr2 dr3 dr4 ds0 ds1 ds2
    ds3 : ℝ} (ht : HasDerivAt t dt v) (hp : HasDerivAt p dp v) (hr0 : HasDerivAt r0 dr0 v) (hr1 : HasDerivAt r1
    dr1 v) (hr2 : HasDerivAt r2 dr2 v) (hr3 : HasDerivAt r3 dr3 v) (hr4 : HasDerivAt r4 dr4 v) (hs0 : HasDerivAt
    s0 ds0 v) (hs1 : HasDerivAt s1 ds1 v) (hs2 : HasDerivAt s2 ds2 v) (hs3 : HasDerivAt s3 ds3 v) (hxm1fe :
    HasDerivAt xm1fe ((1 / 2) * dr1 + (-(1) / 2) * ds1) v) (pxm1fe : 0 < xm1fe v) (hxm2fe : HasDerivAt xm2fe ((1
    / 2) * dr1 + (1 / 2) * ds1) v) (pxm2fe : 0 < xm2fe v) (hxm1mg : HasDerivAt xm1mg ((-(1) / 2) * dr0 + (-(1) /
    2) * dr1 + (-(1) / 2) * dr2 + (-(1) / 2) * dr3 + (1 / 2) * ds0 + (1 / 2) * ds1 + (-(1) / 2) * ds2 + (-(1) /
    2) * ds3) v) (pxm1mg : 0 < xm1mg v) (hxm2mg : HasDerivAt xm2mg ((-(1) / 2) * dr0 + (-(1) / 2) * dr1 + (-(1)
    / 2) * dr2 + (-(1) / 2) * dr3 + (-1) * dr4 + (-(1) / 2) * ds0 + (-(1) / 2) * ds1 + (1 / 2) * ds2 + (1 / 2) *
    ds3) v) (pxm2mg : 0 < xm2mg v) :
    HasDerivAt (fun v => D2GDS1S1 (t v) (p v) (xm1fe v) (xm2fe v) (xm1mg v) (xm2mg v))
    (((D3GDR0S1S1 (t v) (xm1mg v) (xm2mg v)) * dr0 + (D3GDR1S1S1 (t v) (xm1fe v) (xm2fe v) (xm1mg v) (xm2mg v)) *
    dr1 + (D3GDR2S1S1 (t v) (xm1mg v) (xm2mg v)) * dr2 + (D3GDR3S1S1 (t v) (xm1mg v) (xm2mg v)) * dr3 +
    (D3GDR4S1S1 (t v) (xm2mg v)) * dr4) + ((D3GDS1S1DT (xm1fe v) (xm2fe v) (xm1mg v) (xm2mg v)) * dt +
    D3GDS1S1DP * dp) + ((D3GDS0S1S1 (t v) (xm1mg v) (xm2mg v)) * ds0 + (D3GDS1S1S1 (t v) (xm1fe v) (xm2fe v)
    (xm1mg v) (xm2mg v)) * ds1 + (D3GDS1S1S2 (t v) (xm1mg v) (xm2mg v)) * ds2 + (D3GDS1S1S3 (t v) (xm1mg v)
    (xm2mg v)) * ds3)) v := by
  have nxm1fe := pxm1fe.ne'
  have nxm2fe := pxm2fe.ne'
  have nxm1mg := pxm1mg.ne'
  have nxm2mg := pxm2mg.ne'
  try simp only [D2GDS1S1, D3GDS1S1DT, D3GDS1S1DP, D3GDR0S1S1, D3GDR1S1S1, D3GDR2S1S1, D3GDR3S1S1, D3GDR4S1S1, D3GDS0S1S1, D3GDS1S1S1, D3GDS1S1S2, D3GDS1S1S3, zero_mul, mul_zero, add_zero, zero_add, sub_zero]
  have hGS2S2 := k_GS2S2 hp
  refine HasDerivAt.congr_deriv (by hdq) ?_
  ring

lemma c_D2GDS1S2 {t p r0 r1 r2 r3 r4 s0 s1 s2 s3 xm1mg xm2mg : ℝ → ℝ} {v dt dp dr0 dr1 dr2 dr3 dr4 ds0 ds1 ds2 ds3 : ℝ} (ht :
    HasDerivAt t dt v) (hp : HasDerivAt p dp v) (hr0 : HasDerivAt r0 dr0 v) (hr1 : HasDerivAt r1 dr1 v) (hr2 :
    HasDerivAt r2 dr2 v) (hr3 : HasDerivAt r3 dr3 v) (hr4 : HasDerivAt r4 dr4 v) (hs0 : HasDerivAt s0 ds0 v)
    (hs1 : HasDerivAt s1 ds1 v) (hs2 : HasDerivAt s2 ds2 v) (hs3 : HasDerivAt s3 ds3 v) (hxm1mg : HasDerivAt
    xm1mg ((-(1) / 2) * dr0 + (-(1) / 2) * dr1 + (-(1) / 2) * dr2 + (-(1) / 2) * dr3 + (1 / 2) * ds0 + (1 / 2) *
    ds1 + (-(1) / 2) * ds2 + (-(1) / 2) * ds3) v) (pxm1mg : 0 < xm1mg v) (hxm2mg : HasDerivAt xm2mg ((-(1) / 2)
    * dr0 + (-(1) / 2) * dr1 + (-(1) / 2) * dr2 + (-(1) / 2) * dr3 + (-1) * dr4 + (-(1) / 2) * ds0 + (-(1) / 2)
    * ds1 + (1 / 2) * ds2 + (1 / 2) * ds3) v) (pxm2mg : 0 < xm2mg v) :
    HasDerivAt (fun v => D2GDS1S2 (t v) (p v) (xm1mg v) (xm2mg v))
    (((D3GDR0S1S2 (t v) (xm1mg v) (xm2mg v)) * dr0 + (D3GDR1S1S2 (t v) (xm1mg v) (xm2mg v)) * dr1 + (D3GDR2S1S2
    (t v) (xm1mg v) (xm2mg v)) * dr2 + (D3GDR3S1S2 (t v) (xm1mg v) (xm2mg v)) * dr3 + (D3GDR4S1S2 (t v) (xm2mg
    v)) * dr4) + ((D3GDS1S2DT (xm1mg v) (xm2mg v)) * dt + D3GDS1S2DP * dp) + ((D3GDS0S1S2 (t v) (xm1mg v) (xm2mg
    v)) * ds0 + (D3GDS1S1S2 (t v) (xm1mg v) (xm2mg v)) * ds1 + (D3GDS1S2S2 (t v) (xm1mg v) (xm2mg v)) * ds2 +
    (D3GDS1S2S3 (t v) (xm1mg v) (xm2mg v)) * ds3)) v := by
  have nxm1mg := pxm1mg.ne'
  have nxm2mg := pxm2mg.ne'
  try simp only [D2GDS1S2, D3GDS1S2DT, D3GDS1S2DP, D3GDR0S1S2, D3GDR1S1S2, D3GDR2S1S2, D3GDR3S1S2, D3GDR4S1S2, D3GDS0S1S2, D3GDS1S1S2, D3GDS1S2S2, D3GDS1S2S3, zero_mul, mul_zero, add_zero, zero_add, sub_zero]
  have hGS2S3 := k_GS2S3 hp
  refine HasDerivAt.congr_deriv (by hdq) ?_
  ring

lemma c_D2GDS1S3 {t p r0 r1 r2 r3 r4 s0 s1 s2 s3 xm1mg xm2mg : ℝ → ℝ} {v dt dp dr0 dr1 dr2 dr3 dr4 ds0 ds1 ds2 ds3 : ℝ} (ht :
    HasDerivAt t dt v) (hp : HasDerivAt p dp v) (hr0 : HasDerivAt r0 dr0 v) (hr1 : HasDerivAt r1 dr1 v) (hr2 :
    HasDerivAt r2 dr2 v) (hr3 : HasDerivAt r3 dr3 v) (hr4 : HasDerivAt r4 dr4 v) (hs0 : HasDerivAt s0 ds0 v)
    (hs1 : HasDerivAt s1 ds1 v) (hs2 : HasDerivAt s2 ds2 v) (hs3 : HasDerivAt s3 ds3 v) (hxm1mg : HasDerivAt
    xm1mg ((-(1) / 2) * dr0 + (-(1) / 2) * dr1 + (-(1) / 2) * dr2 + (-(1) / 2) * dr3 + (1 / 2) * ds0 + (1 / 2) *
    ds1 + (-(1) / 2) * ds2 + (-(1) / 2) * ds3) v) (pxm1mg : 0 < xm1mg v) (hxm2mg : HasDerivAt xm2mg ((-(1) / 2)
    * dr0 + (-(1) / 2) * dr1 + (-(1) / 2) * dr2 + (-(1) / 2) * dr3 + (-1) * dr4 + (-(1) / 2) * ds0 + (-(1) / 2)
    * ds1 + (1 / 2) * ds2 + (1 / 2) * ds3) v) (pxm2mg : 0 < xm2mg v) :
    HasDerivAt (fun v => D2GDS1S3 (t v) (p v) (xm1mg v) (xm2mg v))
    (((D3GDR0S1S3 (t v) (xm1mg v) (xm2mg v)) * dr0 + (D3GDR1S1S3 (t v) (xm1mg v) (xm2mg v)) * dr1 + (D3GDR2S1S3
    (t v) (xm1mg v) (xm2mg v)) * dr2 + (D3GDR3S1S3 (t v) (xm1mg v) (xm2mg v)) * dr3 + (D3GDR4S1S3 (t v) (xm2mg
    v)) * dr4) + ((D3GDS1S3DT (xm1mg v) (xm2mg v)) * dt + D3GDS1S3DP * dp) + ((D3GDS0S1S3 (t v) (xm1mg v) (xm2mg
    v)) * ds0 + (D3GDS1S1S3 (t v) (xm1mg v) (xm2mg v)) * ds1 + (D3GDS1S2S3 (t v) (xm1mg v) (xm2mg v)) * ds2 +
    (D3GDS1S3S3 (t v) (xm1mg v) (xm2mg v)) * ds3)) v := by
  have nxm1mg := pxm1mg.ne'
  have nxm2mg := pxm2mg.ne'
  try simp only [D2GDS1S3, D3GDS1S3DT, D3GDS1S3DP, D3GDR0S1S3, D3GDR1S1S3, D3GDR2S1S3, D3GDR3S1S3, D3GDR4S1S3, D3GDS0S1S3, D3GDS1S1S3, D3GDS1S2S3, D3GDS1S3S3, zero_mul, mul_zero, add_zero, zero_add, sub_zero]
  have hGS2S4 := k_GS2S4 hp
  refine HasDerivAt.congr_deriv (by hdq) ?_
  ring

lemma c_D2GDS1DT {t p r0 r1 r2 r3 r4 s0 s1 s2 s3 xm1fe xm2fe xm1mg xm2mg : ℝ → ℝ} {v dt dp dr0 dr1 dr2 dr3 dr4 ds0 ds1 ds2
    ds3 : ℝ} (ht : HasDerivAt t dt v) (hp : HasDerivAt p dp v) (hr0 : HasDerivAt r0 dr0 v) (hr1 : HasDerivAt r1
    dr1 v) (hr2 : HasDerivAt r2 dr2 v) (hr3 : HasDerivAt r3 dr3 v) (hr4 : HasDerivAt r4 dr4 v) (hs0 : HasDerivAt
    s0 ds0 v) (hs1 : HasDerivAt s1 ds1 v) (hs2 : HasDerivAt s2 ds2 v) (hs3 : HasDerivAt s3 ds3 v) (hxm1fe :
    HasDerivAt xm1fe ((1 / 2) * dr1 + (-(1) / 2) * ds1) v) (pxm1fe : 0 < xm1fe v) (hxm2fe : HasDerivAt xm2fe ((1
    / 2) * dr1 + (1 / 2) * ds1) v) (pxm2fe : 0 < xm2fe v) (hxm1mg : HasDerivAt xm1mg ((-(1) / 2) * dr0 + (-(1) /
    2) * dr1 + (-(1) / 2) * dr2 + (-(1) / 2) * dr3 + (1 / 2) * ds0 + (1 / 2) * ds1 + (-(1) / 2) * ds2 + (-(1) /
    2) * ds3) v) (pxm1mg : 0 < xm1mg v) (hxm2mg : HasDerivAt xm2mg ((-(1) / 2) * dr0 + (-(1) / 2) * dr1 + (-(1)
    / 2) * dr2 + (-(1) / 2) * dr3 + (-1) * dr4 + (-(1) / 2) * ds0 + (-(1) / 2) * ds1 + (1 / 2) * ds2 + (1 / 2) *
    ds3) v) (pxm2mg : 0 < xm2mg v) :
    HasDerivAt (fun v => D2GDS1DT (xm1fe v) (xm2fe v) (xm1mg v) (xm2mg v))
    (((D3GDR0S1DT (xm1mg v) (xm2mg v)) * dr0 + (D3GDR1S1DT (xm1fe v) (xm2fe v) (xm1mg v) (xm2mg v)) * dr1 +
    (D3GDR2S1DT (xm1mg v) (xm2mg v)) * dr2 + (D3GDR3S1DT (xm1mg v) (xm2mg v)) * dr3 + (D3GDR4S1DT (xm2mg v)) *
    dr4) + (D3GDS1DT2 * dt + D3GDS1DTDP * dp) + ((D3GDS0S1DT (xm1mg v) (xm2mg v)) * ds0 + (D3GDS1S1DT (xm1fe v)
    (xm2fe v) (xm1mg v) (xm2mg v)) * ds1 + (D3GDS1S2DT (xm1mg v) (xm2mg v)) * ds2 + (D3GDS1S3DT (xm1mg v) (xm2mg
    v)) * ds3)) v := by
  have nxm1fe := pxm1fe.ne'
  have nxm2fe := pxm2fe.ne'
  have nxm1mg := pxm1mg.ne'
  have nxm2mg := pxm2mg.ne'
  try simp only [D2GDS1DT, D3GDS1DT2, D3GDS1DTDP, D3GDR0S1DT, D3GDR1S1DT, D3GDR2S1DT, D3GDR3S1DT, D3GDR4S1DT, D3GDS0S1DT, D3GDS1S1DT, D3GDS1S2DT, D3GDS1S3DT, zero_mul, mul_zero, add_zero, zero_add, sub_zero]
  refine HasDerivAt.congr_deriv (by hdq) ?_
  try simp only [log4 nxm2fe nxm1mg nxm1fe nxm2mg]
  ring

lemma c_D2GDS1DP {t p r0 r1 r2 r3 r4 s0 s1 s2 s3 : ℝ → ℝ} {v dt dp dr0 dr1 dr2 dr3 dr4 ds0 ds1 ds2 ds3 : ℝ} (ht : HasDerivAt
    t dt v) (hp : HasDerivAt p dp v) (hr0 : HasDerivAt r0 dr0 v) (hr1 : HasDerivAt r1 dr1 v) (hr2 : HasDerivAt
    r2 dr2 v) (hr3 : HasDerivAt r3 dr3 v) (hr4 : HasDerivAt r4 dr4 v) (hs0 : HasDerivAt s0 ds0 v) (hs1 :
    HasDerivAt s1 ds1 v) (hs2 : HasDerivAt s2 ds2 v) (hs3 : HasDerivAt s3 ds3 v) :
    HasDerivAt (fun v => D2GDS1DP (r0 v) (r1 v) (r2 v) (r3 v) (r4 v) (s0 v) (s1 v) (s2 v) (s3 v))
    ((D3GDR0S1DP * dr0 + D3GDR1S1DP * dr1 + D3GDR2S1DP * dr2 + D3GDR3S1DP * dr3 + D3GDR4S1DP * dr4) + (D3GDS1DTDP
    * dt + D3GDS1DP2 * dp) + (D3GDS0S1DP * ds0 + D3GDS1S1DP * ds1 + D3GDS1S2DP * ds2 + D3GDS1S3DP * ds3)) v := by
  try simp only [D2GDS1DP, D3GDS1DTDP, D3GDS1DP2, D3GDR0S1DP, D3GDR1S1DP, D3GDR2S1DP, D3GDR3S1DP, D3GDR4S1DP, D3GDS0S1DP, D3GDS1S1DP, D3GDS1S2DP, D3GDS1S3DP, zero_mul, mul_zero, add_zero, zero_add, sub_zero]
  refine HasDerivAt.congr_deriv (by hdq) ?_
  ring

lemma c_D2GDS2S2 {t p r0 r1 r2 r3 r4 s0 s1 s2 s3 xm1co xm2co xm1mg xm2mg : ℝ → ℝ} {v dt dp dr0 dr1 dr2 dr3 dr4 ds0 ds1 ds2
    ds3 : ℝ} (ht : HasDerivAt t dt v) (hp : HasDerivAt p dp v) (hr0 : HasDerivAt r0 dr0 v) (hr1 : HasDerivAt r1
    dr1 v) (hr2 : HasDerivAt r2 dr2 v) (hr3 : HasDerivAt r3 dr3 v) (hr4 : HasDerivAt r4 dr4 v) (hs0 : HasDerivAt
    s0 ds0 v) (hs1 : HasDerivAt s1 ds1 v) (hs2 : HasDerivAt s2 ds2 v) (hs3 : HasDerivAt s3 ds3 v) (hxm1co :
    HasDerivAt xm1co ((1 / 2) * dr2 + (1 / 2) * ds2) v) (pxm1co : 0 < xm1co v) (hxm2co : HasDerivAt xm2co ((1 /
    2) * dr2 + (-(1) / 2) * ds2) v) (pxm2co : 0 < xm2co v) (hxm1mg : HasDerivAt xm1mg ((-(1) / 2) * dr0 + (-(1)
    / 2) * dr1 + (-(1) / 2) * dr2 + (-(1) / 2) * dr3 + (1 / 2) * ds0 + (1 / 2) * ds1 + (-(1) / 2) * ds2 + (-(1)
    / 2) * ds3) v) (pxm1mg : 0 < xm1mg v) (hxm2mg : HasDerivAt xm2mg ((-(1) / 2) * dr0 + (-(1) / 2) * dr1 +
    (-(1) / 2) * dr2 + (-(1) / 2) * dr3 + (-1) * dr4 + (-(1) / 2) * ds0 + (-(1) / 2) * ds1 + (1 / 2) * ds2 + (1
    / 2) * ds3) v) (pxm2mg : 0 < xm2mg v) :
    HasDerivAt (fun v => D2GDS2S2 (t v) (p v) (xm1co v) (xm2co v) (xm1mg v) (xm2mg v))
    (((D3GDR0S2S2 (t v) (xm1mg v) (xm2mg v)) * dr0 + (D3GDR1S2S2 (t v) (xm1mg v) (xm2mg v)) * dr1 + (D3GDR2S2S2
    (t v) (xm1co v) (xm2co v) (xm1mg v) (xm2mg v)) * dr2 + (D3GDR3S2S2 (t v) (xm1mg v) (xm2mg v)) * dr3 +
    (D3GDR4S2S2 (t v) (xm2mg v)) * dr4) + ((D3GDS2S2DT (xm1co v) (xm2co v) (xm1mg v) (xm2mg v)) * dt +
    D3GDS2S2DP * dp) + ((D3GDS0S2S2 (t v) (xm1mg v) (xm2mg v)) * ds0 + (D3GDS1S2S2 (t v) (xm1mg v) (xm2mg v)) *
    ds1 + (D3GDS2S2S2 (t v) (xm1co v) (xm2co v) (xm1mg v) (xm2mg v)) * ds2 + (D3GDS2S2S3 (t v) (xm1mg v) (xm2mg
    v)) * ds3)) v := by
  have nxm1co := pxm1co.ne'
  have nxm2co := pxm2co.ne'
  have nxm1mg := pxm1mg.ne'
  have nxm2mg := pxm2mg.ne'
  try simp only [D2GDS2S2, D3GDS2S2DT, D3GDS2S2DP, D3GDR0S2S2, D3GDR1S2S2, D3GDR2S2S2, D3GDR3S2S2, D3GDR4S2S2, D3GDS0S2S2, D3GDS1S2S2, D3GDS2S2S2, D3GDS2S2S3, zero_mul, mul_zero, add_zero, zero_add, sub_zero]
  have hGS3S3 := k_GS3S3 hp
  refine HasDerivAt.congr_deriv (by hdq) ?_
  ring

lemma c_D2GDS2S3 {t p r0 r1 r2 r3 r4 s0 s1 s2 s3 xm1mg xm2mg : ℝ → ℝ} {v dt dp dr0 dr1 dr2 dr3 dr4 ds0 ds1 ds2 ds3 : ℝ} (ht :
    HasDerivAt t dt v) (hp : HasDerivAt p dp v) (hr0 : HasDerivAt r0 dr0 v) (hr1 : HasDerivAt r1 dr1 v) (hr2 :
    HasDerivAt r2 dr2 v) (hr3 : HasDerivAt r3 dr3 v) (hr4 : HasDerivAt r4 dr4 v) (hs0 : HasDerivAt s0 ds0 v)
    (hs1 : HasDerivAt s1 ds1 v) (hs2 : HasDerivAt s2 ds2 v) (hs3 : HasDerivAt s3 ds3 v) (hxm1mg : HasDerivAt
    xm1mg ((-(1) / 2) * dr0 + (-(1) / 2) * dr1 + (-(1) / 2) * dr2 + (-(1) / 2) * dr3 + (1 / 2) * ds0 + (1 / 2) *
    ds1 + (-(1) / 2) * ds2 + (-(1) / 2) * ds3) v) (pxm1mg : 0 < xm1mg v) (hxm2mg : HasDerivAt xm2mg ((-(1) / 2)
    * dr0 + (-(1) / 2) * dr1 + (-(1) / 2) * dr2 + (-(1) / 2) * dr3 + (-1) * dr4 + (-(1) / 2) * ds0 + (-(1) / 2)
    * ds1 + (1 / 2) * ds2 + (1 / 2) * ds3) v) (pxm2mg : 0 < xm2mg v) :
    HasDerivAt (fun v => D2GDS2S3 (t v) (p v) (xm1mg v) (xm2mg v))
    (((D3GDR0S2S3 (t v) (xm1mg v) (xm2mg v)) * dr0 + (D3GDR1S2S3 (t v) (xm1mg v) (xm2mg v)) * dr1 + (D3GDR2S2S3
    (t v) (xm1mg v) (xm2mg v)) * dr2 + (D3GDR3S2S3 (t v) (xm1mg v) (xm2mg v)) * dr3 + (D3GDR4S2S3 (t v) (xm2mg
    v)) * dr4) + ((D3GDS2S3DT (xm1mg v) (xm2mg v)) * dt + D3GDS2S3DP * dp) + ((D3GDS0S2S3 (t v) (xm1mg v) (xm2mg
    v)) * ds0 + (D3GDS1S2S3 (t v) (xm1mg v) (xm2mg v)) * ds1 + (D3GDS2S2S3 (t v) (xm1mg v) (xm2mg v)) * ds2 +
    (D3GDS2S3S3 (t v) (xm1mg v) (xm2mg v)) * ds3)) v := by
  have nxm1mg := pxm1mg.ne'
  have nxm2mg := pxm2mg.ne'
  try simp only [D2GDS2S3, D3GDS2S3DT, D3GDS2S3DP, D3GDR0S2S3, D3GDR1S2S3, D3GDR2S2S3, D3GDR3S2S3, D3GDR4S2S3, D3GDS0S2S3, D3GDS1S2S3, D3GDS2S2S3, D3GDS2S3S3, zero_mul, mul_zero, add_zero, zero_add, sub_zero]
  have hGS3S4 := k_GS3S4 hp
  refine HasDerivAt.congr_deriv (by hdq) ?_
  ring

lemma c_D2GDS2DT {t p r0 r1 r2 r3 r4 s0 s1 s2 s3 xm1co xm2co xm1mg xm2mg : ℝ → ℝ} {v dt dp dr0 dr1 dr2 dr3 dr4 ds0 ds1 ds2
    ds3 : ℝ} (ht : HasDerivAt t dt v) (hp : HasDerivAt p dp v) (hr0 : HasDerivAt r0 dr0 v) (hr1 : HasDerivAt r1
    dr1 v) (hr2 : HasDerivAt r2 dr2 v) (hr3 : HasDerivAt r3 dr3 v) (hr4 : HasDerivAt r4 dr4 v) (hs0 : HasDerivAt
    s0 ds0 v) (hs1 : HasDerivAt s1 ds1 v) (hs2 : HasDerivAt s2 ds2 v) (hs3 : HasDerivAt s3 ds3 v) (hxm1co :
    HasDerivAt xm1co ((1 / 2) * dr2 + (1 / 2) * ds2) v) (pxm1co : 0 < xm1co v) (hxm2co : HasDerivAt xm2co ((1 /
    2) * dr2 + (-(1) / 2) * ds2) v) (pxm2co : 0 < xm2co v) (hxm1mg : HasDerivAt xm1mg ((-(1) / 2) * dr0 + (-(1)
    / 2) * dr1 + (-(1) / 2) * dr2 + (-(1) / 2) * dr3 + (1 / 2) * ds0 + (1 / 2) * ds1 + (-(1) / 2) * ds2 + (-(1)
    / 2) * ds3) v) (pxm1mg : 0 < xm1mg v) (hxm2mg : HasDerivAt xm2mg ((-(1) / 2) * dr0 + (-(1) / 2) * dr1 +
    (-(1) / 2) * dr2 + (-(1) / 2) * dr3 + (-1) * dr4 + (-(1) / 2) * ds0 + (-(1) / 2) * ds1 + (1 / 2) * ds2 + (1
    / 2) * ds3) v) (pxm2mg : 0 < xm2mg v) :
    HasDerivAt (fun v => D2GDS2DT (xm1co v) (xm2co v) (xm1mg v) (xm2mg v))
    (((D3GDR0S2DT (xm1mg v) (xm2mg v)) * dr0 + (D3GDR1S2DT (xm1mg v) (xm2mg v)) * dr1 + (D3GDR2S2DT (xm1co v)
    (xm2co v) (xm1mg v) (xm2mg v)) * dr2 + (D3GDR3S2DT (xm1mg v) (xm2mg v)) * dr3 + (D3GDR4S2DT (xm2mg v)) *
    dr4) + (D3GDS2DT2 * dt + D3GDS2DTDP * dp) + ((D3GDS0S2DT (xm1mg v) (xm2mg v)) * ds0 + (D3GDS1S2DT (xm1mg v)
    (xm2mg v)) * ds1 + (D3GDS2S2DT (xm1co v) (xm2co v) (xm1mg v) (xm2mg v)) * ds2 + (D3GDS2S3DT (xm1mg v) (xm2mg
    v)) * ds3)) v := by
  have nxm1co := pxm1co.ne'
  have nxm2co := pxm2co.ne'
  have nxm1mg := pxm1mg.ne'
  have nxm2mg := pxm2mg.ne'
  try simp only [D2GDS2DT, D3GDS2DT2, D3GDS2DTDP, D3GDR0S2DT, D3GDR1S2DT, D3GDR2S2DT, D3GDR3S2DT, D3GDR4S2DT, D3GDS0S2DT, D3GDS1S2DT, D3GDS2S2DT, D3GDS2S3DT, zero_mul, mul_zero, add_zero, zero_add, sub_zero]
  refine HasDerivAt.congr_deriv (by hdq) ?_
  try simp only [log4 nxm1co nxm2mg nxm2co nxm1mg]
  ring

lemma c_D2GDS2DP {t p r0 r1 r2 r3 r4 s0 s1 s2 s3 : ℝ → ℝ} {v dt dp dr0 dr1 dr2 dr3 dr4 ds0 ds1 ds2 ds3 : ℝ} (ht : HasDerivAt
    t dt v) (hp : HasDerivAt p dp v) (hr0 : HasDerivAt r0 dr0 v) (hr1 : HasDerivAt r1 dr1 v) (hr2 : HasDerivAt
    r2 dr2 v) (hr3 : HasDerivAt r3 dr3 v) (hr4 : HasDerivAt r4 dr4 v) (hs0 : HasDerivAt s0 ds0 v) (hs1 :
    HasDerivAt s1 ds1 v) (hs2 : HasDerivAt s2 ds2 v) (hs3 : HasDerivAt s3 ds3 v) :
    HasDerivAt (fun v => D2GDS2DP (r0 v) (r1 v) (r2 v) (r3 v) (r4 v) (s0 v) (s1 v) (s2 v) (s3 v))
    ((D3GDR0S2DP * dr0 + D3GDR1S2DP * dr1 + D3GDR2S2DP * dr2 + D3GDR3S2DP * dr3 + D3GDR4S2DP * dr4) + (D3GDS2DTDP
    * dt + D3GDS2DP2 * dp) + (D3GDS0S2DP * ds0 + D3GDS1S2DP * ds1 + D3GDS2S2DP * ds2 + D3GDS2S3DP * ds3)) v := by
  try simp only [D2GDS2DP, D3GDS2DTDP, D3GDS2DP2, D3GDR0S2DP, D3GDR1S2DP, D3GDR2S2DP, D3GDR3S2DP, D3GDR4S2DP, D3GDS0S2DP, D3GDS1S2DP, D3GDS2S2DP, D3GDS2S3DP, zero_mul, mul_zero, add_zero, zero_add, sub_zero]
  refine HasDerivAt.congr_deriv (by hdq) ?_
  ring

lemma c_D2GDS3S3 {t p r0 r1 r2 r3 r4 s0 s1 s2 s3 xm1ni xm2ni xm1mg xm2mg : ℝ → ℝ} {v dt dp dr0 dr1 dr2 dr3 dr4 ds0 ds1 ds2
    ds3 : ℝ} (ht : HasDerivAt t dt v) (hp : HasDerivAt p dp v) (hr0 : HasDerivAt r0 dr0 v) (hr1 : HasDerivAt r1
    dr1 v) (hr2 : HasDerivAt r2 dr2 v) (hr3 : HasDerivAt r3 dr3 v) (hr4 : HasDerivAt r4 dr4 v) (hs0 : HasDerivAt
    s0 ds0 v) (hs1 : HasDerivAt s1 ds1 v) (hs2 : HasDerivAt s2 ds2 v) (hs3 : HasDerivAt s3 ds3 v) (hxm1ni :
    HasDerivAt xm1ni ((1 / 2) * dr3 + (1 / 2) * ds3) v) (pxm1ni : 0 < xm1ni v) (hxm2ni : HasDerivAt xm2ni ((1 /
    2) * dr3 + (-(1) / 2) * ds3) v) (pxm2ni : 0 < xm2ni v) (hxm1mg : HasDerivAt xm1mg ((-(1) / 2) * dr0 + (-(1)
    / 2) * dr1 + (-(1) / 2) * dr2 + (-(1) / 2) * dr3 + (1 / 2) * ds0 + (1 / 2) * ds1 + (-(1) / 2) * ds2 + (-(1)
    / 2) * ds3) v) (pxm1mg : 0 < xm1mg v) (hxm2mg : HasDerivAt xm2mg ((-(1) / 2) * dr0 + (-(1) / 2) * dr1 +
    (-(1) / 2) * dr2 + (-(1) / 2) * dr3 + (-1) * dr4 + (-(1) / 2) * ds0 + (-(1) / 2) * ds1 + (1 / 2) * ds2 + (1
    / 2) * ds3) v) (pxm2mg : 0 < xm2mg v) :
    HasDerivAt (fun v => D2GDS3S3 (t v) (p v) (xm1ni v) (xm2ni v) (xm1mg v) (xm2mg v))
    (((D3GDR0S3S3 (t v) (xm1mg v) (xm2mg v)) * dr0 + (D3GDR1S3S3 (t v) (xm1mg v) (xm2mg v)) * dr1 + (D3GDR2S3S3
    (t v) (xm1mg v) (xm2mg v)) * dr2 + (D3GDR3S3S3 (t v) (xm1ni v) (xm2ni v) (xm1mg v) (xm2mg v)) * dr3 +
    (D3GDR4S3S3 (t v) (xm2mg v)) * dr4) + ((D3GDS3S3DT (xm1ni v) (xm2ni v) (xm1mg v) (xm2mg v)) * dt +
    D3GDS3S3DP * dp) + ((D3GDS0S3S3 (t v) (xm1mg v) (xm2mg v)) * ds0 + (D3GDS1S3S3 (t v) (xm1mg v) (xm2mg v)) *
    ds1 + (D3GDS2S3S3 (t v) (xm1mg v) (xm2mg v)) * ds2 + (D3GDS3S3S3 (t v) (xm1ni v) (xm2ni v) (xm1mg v) (xm2mg
    v)) * ds3)) v := by
  have nxm1ni := pxm1ni.ne'
  have nxm2ni := pxm2ni.ne'
  have nxm1mg := pxm1mg.ne'
  have nxm2mg := pxm2mg.ne'
  try simp only [D2GDS3S3, D3GDS3S3DT, D3GDS3S3DP, D3GDR0S3S3, D3GDR1S3S3, D3GDR2S3S3, D3GDR3S3S3, D3GDR4S3S3, D3GDS0S3S3, D3GDS1S3S3, D3GDS2S3S3, D3GDS3S3S3, zero_mul, mul_zero, add_zero, zero_add, sub_zero]
  have hGS4S4 := k_GS4S4 hp
  refine HasDerivAt.congr_deriv (by hdq) ?_
  ring

lemma c_D2GDS3DT {t p r0 r1 r2 r3 r4 s0 s1 s2 s3 xm1ni xm2ni xm1mg xm2mg : ℝ → ℝ} {v dt dp dr0 dr1 dr2 dr3 dr4 ds0 ds1 ds2
    ds3 : ℝ} (ht : HasDerivAt t dt v) (hp : HasDerivAt p dp v) (hr0 : HasDerivAt r0 dr0 v) (hr1 : HasDerivAt r1
    dr1 v) (hr2 : HasDerivAt r2 dr2 v) (hr3 : HasDerivAt r3 dr3 v) (hr4 : HasDerivAt r4 dr4 v) (hs0 : HasDerivAt
    s0 ds0 v) (hs1 : HasDerivAt s1 ds1 v) (hs2 : HasDerivAt s2 ds2 v) (hs3 : HasDerivAt s3 ds3 v) (hxm1ni :
    HasDerivAt xm1ni ((1 / 2) * dr3 + (1 / 2) * ds3) v) (pxm1ni : 0 < xm1ni v) (hxm2ni : HasDerivAt xm2ni ((1 /
    2) * dr3 + (-(1) / 2) * ds3) v) (pxm2ni : 0 < xm2ni v) (hxm1mg : HasDerivAt xm1mg ((-(1) / 2) * dr0 + (-(1)
    / 2) * dr1 + (-(1) / 2) * dr2 + (-(1) / 2) * dr3 + (1 / 2) * ds0 + (1 / 2) * ds1 + (-(1) / 2) * ds2 + (-(1)
    / 2) * ds3) v) (pxm1mg : 0 < xm1mg v) (hxm2mg : HasDerivAt xm2mg ((-(1) / 2) * dr0 + (-(1) / 2) * dr1 +
    (-(1) / 2) * dr2 + (-(1) / 2) * dr3 + (-1) * dr4 + (-(1) / 2) * ds0 + (-(1) / 2) * ds1 + (1 / 2) * ds2 + (1
    / 2) * ds3) v) (pxm2mg : 0 < xm2mg v) :
    HasDerivAt (fun v => D2GDS3DT (xm1ni v) (xm2ni v) (xm1mg v) (xm2mg v))
    (((D3GDR0S3DT (xm1mg v) (xm2mg v)) * dr0 + (D3GDR1S3DT (xm1mg v) (xm2mg v)) * dr1 + (D3GDR2S3DT (xm1mg v)
    (xm2mg v)) * dr2 + (D3GDR3S3DT (xm1ni v) (xm2ni v) (xm1mg v) (xm2mg v)) * dr3 + (D3GDR4S3DT (xm2mg v)) *
    dr4) + (D3GDS3DT2 * dt + D3GDS3DTDP * dp) + ((D3GDS0S3DT (xm1mg v) (xm2mg v)) * ds0 + (D3GDS1S3DT (xm1mg v)
    (xm2mg v)) * ds1 + (D3GDS2S3DT (xm1mg v) (xm2mg v)) * ds2 + (D3GDS3S3DT (xm1ni v) (xm2ni v) (xm1mg v) (xm2mg
    v)) * ds3)) v := by
  have nxm1ni := pxm1ni.ne'
  have nxm2ni := pxm2ni.ne'
  have nxm1mg := pxm1mg.ne'
  have nxm2mg := pxm2mg.ne'
  try simp only [D2GDS3DT, D3GDS3DT2, D3GDS3DTDP, D3GDR0S3DT, D3GDR1S3DT, D3GDR2S3DT, D3GDR3S3DT, D3GDR4S3DT, D3GDS0S3DT, D3GDS1S3DT, D3GDS2S3DT, D3GDS3S3DT, zero_mul, mul_zero, add_zero, zero_add, sub_zero]
  refine HasDerivAt.congr_deriv (by hdq) ?_
  try simp only [log4 nxm1ni nxm2mg nxm2ni nxm1mg]
  ring

lemma c_D2GDS3DP {t p r0 r1 r2 r3 r4 s0 s1 s2 s3 : ℝ → ℝ} {v dt dp dr0 dr1 dr2 dr3 dr4 ds0 ds1 ds2 ds3 : ℝ} (ht : HasDerivAt
    t dt v) (hp : HasDerivAt p dp v) (hr0 : HasDerivAt r0 dr0 v) (hr1 : HasDerivAt r1 dr1 v) (hr2 : HasDerivAt
    r2 dr2 v) (hr3 : HasDerivAt r3 dr3 v) (hr4 : HasDerivAt r4 dr4 v) (hs0 : HasDerivAt s0 ds0 v) (hs1 :
    HasDerivAt s1 ds1 v) (hs2 : HasDerivAt s2 ds2 v) (hs3 : HasDerivAt s3 ds3 v) :
    HasDerivAt (fun v => D2GDS3DP (r0 v) (r1 v) (r2 v) (r3 v) (r4 v) (s0 v) (s1 v) (s2 v) (s3 v))
    ((D3GDR0S3DP * dr0 + D3GDR1S3DP * dr1 + D3GDR2S3DP * dr2 + D3GDR3S3DP * dr3 + D3GDR4S3DP * dr4) + (D3GDS3DTDP
    * dt + D3GDS3DP2 * dp) + (D3GDS0S3DP * ds0 + D3GDS1S3DP * ds1 + D3GDS2S3DP * ds2 + D3GDS3S3DP * ds3)) v := by
  try simp only [D2GDS3DP, D3GDS3DTDP, D3GDS3DP2, D3GDR0S3DP, D3GDR1S3DP, D3GDR2S3DP, D3GDR3S3DP, D3GDR4S3DP, D3GDS0S3DP, D3GDS1S3DP, D3GDS2S3DP, D3GDS3S3DP, zero_mul, mul_zero, add_zero, zero_add, sub_zero]
  refine HasDerivAt.congr_deriv (by hdq) ?_
  ring

lemma c_D2GDT2 {t p r0 r1 r2 r3 r4 s0 s1 s2 s3 : ℝ → ℝ} {v dt dp dr0 dr1 dr2 dr3 dr4 ds0 ds1 ds2 ds3 : ℝ} (ht : HasDerivAt
    t dt v) (hp : HasDerivAt p dp v) (hr0 : HasDerivAt r0 dr0 v) (hr1 : HasDerivAt r1 dr1 v) (hr2 : HasDerivAt
    r2 dr2 v) (hr3 : HasDerivAt r3 dr3 v) (hr4 : HasDerivAt r4 dr4 v) (hs0 : HasDerivAt s0 ds0 v) (hs1 :
    HasDerivAt s1 ds1 v) (hs2 : HasDerivAt s2 ds2 v) (hs3 : HasDerivAt s3 ds3 v) :
    HasDerivAt (fun v => D2GDT2)
    ((D3GDR0DT2 * dr0 + D3GDR1DT2 * dr1 + D3GDR2DT2 * dr2 + D3GDR3DT2 * dr3 + D3GDR4DT2 * dr4) + (D3GDT3 * dt +
    D3GDT2DP * dp) + (D3GDS0DT2 * ds0 + D3GDS1DT2 * ds1 + D3GDS2DT2 * ds2 + D3GDS3DT2 * ds3)) v := by
  try simp only [D2GDT2, D3GDT3, D3GDT2DP, D3GDR0DT2, D3GDR1DT2, D3GDR2DT2, D3GDR3DT2, D3GDR4DT2, D3GDS0DT2, D3GDS1DT2, D3GDS2DT2, D3GDS3DT2, zero_mul, mul_zero, add_zero, zero_add, sub_zero]
  refine HasDerivAt.congr_deriv (by hdq) ?_
  ring

lemma c_D2GDTDP {t p r0 r1 r2 r3 r4 s0 s1 s2 s3 : ℝ → ℝ} {v dt dp dr0 dr1 dr2 dr3 dr4 ds0 ds1 ds2 ds3 : ℝ} (ht : HasDerivAt
    t dt v) (hp : HasDerivAt p dp v) (hr0 : HasDerivAt r0 dr0 v) (hr1 : HasDerivAt r1 dr1 v) (hr2 : HasDerivAt
    r2 dr2 v) (hr3 : HasDerivAt r3 dr3 v) (hr4 : HasDerivAt r4 dr4 v) (hs0 : HasDerivAt s0 ds0 v) (hs1 :
    HasDerivAt s1 ds1 v) (hs2 : HasDerivAt s2 ds2 v) (hs3 : HasDerivAt s3 ds3 v) :
    HasDerivAt (fun v => D2GDTDP)
    ((D3GDR0DTDP * dr0 + D3GDR1DTDP * dr1 + D3GDR2DTDP * dr2 + D3GDR3DTDP * dr3 + D3GDR4DTDP * dr4) + (D3GDT2DP *
    dt + D3GDTDP2 * dp) + (D3GDS0DTDP * ds0 + D3GDS1DTDP * ds1 + D3GDS2DTDP * ds2 + D3GDS3DTDP * ds3)) v := by
  try simp only [D2GDTDP, D3GDT2DP, D3GDTDP2, D3GDR0DTDP, D3GDR1DTDP, D3GDR2DTDP, D3GDR3DTDP, D3GDR4DTDP, D3GDS0DTDP, D3GDS1DTDP, D3GDS2DTDP, D3GDS3DTDP, zero_mul, mul_zero, add_zero, zero_add, sub_zero]
  refine HasDerivAt.congr_deriv (by hdq) ?_
  ring

lemma c_D2GDP2 {t p r0 r1 r2 r3 r4 s0 s1 s2 s3 : ℝ → ℝ} {v dt dp dr0 dr1 dr2 dr3 dr4 ds0 ds1 ds2 ds3 : ℝ} (ht : HasDerivAt
    t dt v) (hp : HasDerivAt p dp v) (hr0 : HasDerivAt r0 dr0 v) (hr1 : HasDerivAt r1 dr1 v) (hr2 : HasDerivAt
    r2 dr2 v) (hr3 : HasDerivAt r3 dr3 v) (hr4 : HasDerivAt r4 dr4 v) (hs0 : HasDerivAt s0 ds0 v) (hs1 :
    HasDerivAt s1 ds1 v) (hs2 : HasDerivAt s2 ds2 v) (hs3 : HasDerivAt s3 ds3 v) :
    HasDerivAt (fun v => D2GDP2)
    ((D3GDR0DP2 * dr0 + D3GDR1DP2 * dr1 + D3GDR2DP2 * dr2 + D3GDR3DP2 * dr3 + D3GDR4DP2 * dr4) + (D3GDTDP2 * dt +
    D3GDP3 * dp) + (D3GDS0DP2 * ds0 + D3GDS1DP2 * ds1 + D3GDS2DP2 * ds2 + D3GDS3DP2 * ds3)) v := by
  try simp only [D2GDP2, D3GDTDP2, D3GDP3, D3GDR0DP2, D3GDR1DP2, D3GDR2DP2, D3GDR3DP2, D3GDR4DP2, D3GDS0DP2, D3GDS1DP2, D3GDS2DP2, D3GDS3DP2, zero_mul, mul_zero, add_zero, zero_add, sub_zero]
  refine HasDerivAt.congr_deriv (by hdq) ?_
  ring

attribute [local irreducible] S GXMNFE W1MNFE W2MNFE GXMNCO W1MNCO W2MNCO GXMNNI W1MNNI W2MNNI GXFECO W1FECO
    W2FECO GXFENI W1FENI W2FENI GXCONI W1CONI W2CONI GXMGMN W1MGMN W2MGMN GXMGFE W1MGFE W2MGFE GXMGCO W1MGCO
    W2MGCO GXMGNI W1MGNI W2MGNI G0 GR1 GR2 GR3 GR4 W2CAMG GEXMGMN W2CAMN GEXMGFE W2CAFE GEXMGCO W2CACO GEXMGNI
    W2CANI GR5 GEXMNFE GEXMNCO GEXMNNI GS1 GEXFECO GEXFENI GS2 GEXCONI GS3 GS4 GR1R1 GR1R2 GR1R3 GR1R4 GR1R5
    GR1S1 GR1S2 GR1S3 GR1S4 GR2R2 GR2R3 GR2R4 GR2R5 GR2S1 GR2S2 GR2S3 GR2S4 GR3R3 GR3R4 GR3R5 GR3S1 GR3S2 GR3S3
    GR3S4 GR4R4 GR4R5 GR4S1 GR4S2 GR4S3 GR4S4 GR5R5 GR5S1 GR5S2 GR5S3 GR5S4 GS1S1 GS1S2 GS1S3 GS1S4 GS2S2 GS2S3
    GS2S4 GS3S3 GS3S4 GS4S4 H V G DGDR0 DGDR1 DGDR2 DGDR3 DGDR4 DGDS0 DGDS1 DGDS2 DGDS3 DGDT DGDP D2GDR0R0
    D2GDR0R1 D2GDR0R2 D2GDR0R3 D2GDR0R4 D2GDR0S0 D2GDR0S1 D2GDR0S2 D2GDR0S3 D2GDR0DT D2GDR0DP D2GDR1R1 D2GDR1R2
    D2GDR1R3 D2GDR1R4 D2GDR1S0 D2GDR1S1 D2GDR1S2 D2GDR1S3 D2GDR1DT D2GDR1DP D2GDR2R2 D2GDR2R3 D2GDR2R4 D2GDR2S0
    D2GDR2S1 D2GDR2S2 D2GDR2S3 D2GDR2DT D2GDR2DP D2GDR3R3 D2GDR3R4 D2GDR3S0 D2GDR3S1 D2GDR3S2 D2GDR3S3 D2GDR3DT
    D2GDR3DP D2GDR4R4 D2GDR4S0 D2GDR4S1 D2GDR4S2 D2GDR4S3 D2GDR4DT D2GDR4DP D2GDS0S0 D2GDS0S1 D2GDS0S2 D2GDS0S3
    D2GDS0DT D2GDS0DP D2GDS1S1 D2GDS1S2 D2GDS1S3 D2GDS1DT D2GDS1DP D2GDS2S2 D2GDS2S3 D2GDS2DT D2GDS2DP D2GDS3S3
    D2GDS3DT D2GDS3DP D3GDR0R0R0 D3GDR0R0R1 D3GDR0R0S0 D3GDR0R0S1 D3GDR0R0S2 D3GDR0R0S3 D3GDR0R0DT D3GDR0R1S0
    D3GDR0R1S1 D3GDR0R1S2 D3GDR0R1S3 D3GDR0R1DT D3GDR0R2S0 D3GDR0R2S1 D3GDR0R2S2 D3GDR0R2S3 D3GDR0R2DT
    D3GDR0R3S0 D3GDR0R3S1 D3GDR0R3S2 D3GDR0R3S3 D3GDR0R3DT D3GDR0R4S0 D3GDR0R4S1 D3GDR0R4S2 D3GDR0R4S3
    D3GDR0R4DT D3GDR0S0S0 D3GDR0S0S1 D3GDR0S0S2 D3GDR0S0S3 D3GDR0S0DT D3GDR0S1S1 D3GDR0S1S2 D3GDR0S1S3
    D3GDR0S1DT D3GDR0S2S2 D3GDR0S2S3 D3GDR0S2DT D3GDR0S3S3 D3GDR0S3DT D3GDR1R1R1 D3GDR1R1S0 D3GDR1R1S1
    D3GDR1R1S2 D3GDR1R1S3 D3GDR1R1DT D3GDR1R2S0 D3GDR1R2S1 D3GDR1R2S2 D3GDR1R2S3 D3GDR1R2DT D3GDR1R3S0
    D3GDR1R3S1 D3GDR1R3S2 D3GDR1R3S3 D3GDR1R3DT D3GDR1R4S0 D3GDR1R4S1 D3GDR1R4S2 D3GDR1R4S3 D3GDR1R4DT
    D3GDR1S0S0 D3GDR1S0S1 D3GDR1S0S2 D3GDR1S0S3 D3GDR1S0DT D3GDR1S1S1 D3GDR1S1S2 D3GDR1S1S3 D3GDR1S1DT
    D3GDR1S2S2 D3GDR1S2S3 D3GDR1S2DT D3GDR1S3S3 D3GDR1S3DT D3GDR2R2R2 D3GDR2R2S0 D3GDR2R2S1 D3GDR2R2S2
    D3GDR2R2S3 D3GDR2R2DT D3GDR2R3S0 D3GDR2R3S1 D3GDR2R3S2 D3GDR2R3S3 D3GDR2R3DT D3GDR2R4S0 D3GDR2R4S1
    D3GDR2R4S2 D3GDR2R4S3 D3GDR2R4DT D3GDR2S0S0 D3GDR2S0S1 D3GDR2S0S2 D3GDR2S0S3 D3GDR2S0DT D3GDR2S1S1
    D3GDR2S1S2 D3GDR2S1S3 D3GDR2S1DT D3GDR2S2S2 D3GDR2S2S3 D3GDR2S2DT D3GDR2S3S2 D3GDR2S3S3 D3GDR2S3DT
    D3GDR3R3R3 D3GDR3R3S0 D3GDR3R3S1 D3GDR3R3S2 D3GDR3R3S3 D3GDR3R3DT D3GDR3R4S0 D3GDR3R4S1 D3GDR3R4S2
    D3GDR3R4S3 D3GDR3R4DT D3GDR3S0S0 D3GDR3S0S1 D3GDR3S0S2 D3GDR3S0S3 D3GDR3S0DT D3GDR3S1S1 D3GDR3S1S2
    D3GDR3S1S3 D3GDR3S1DT D3GDR3S2S2 D3GDR3S2S3 D3GDR3S2DT D3GDR3S3S3 D3GDR3S3DT D3GDR4R4R4 D3GDR4R4R0
    D3GDR4R0R0 D3GDR4R4S0 D3GDR4R4S1 D3GDR4R4S2 D3GDR4R4S3 D3GDR4R4DT D3GDR4S0S0 D3GDR4S0S1 D3GDR4S0S2
    D3GDR4S0S3 D3GDR4S0DT D3GDR4S1S1 D3GDR4S1S2 D3GDR4S1S3 D3GDR4S1DT D3GDR4S2S2 D3GDR4S2S3 D3GDR4S2DT
    D3GDR4S3S3 D3GDR4S3DT D3GDS0S0S0 D3GDS0S0S1 D3GDS0S0S2 D3GDS0S0S3 D3GDS0S0DT D3GDS0S1S1 D3GDS0S1S2
    D3GDS0S1S3 D3GDS0S1DT D3GDS0S2S2 D3GDS0S2S3 D3GDS0S2DT D3GDS0S3S3 D3GDS0S3DT D3GDS1S1S1 D3GDS1S1S2
    D3GDS1S1S3 D3GDS1S1DT D3GDS1S2S2 D3GDS1S2S3 D3GDS1S2DT D3GDS1S3S3 D3GDS1S3DT D3GDS2S2S2 D3GDS2S2S3
    D3GDS2S2DT D3GDS2S3S3 D3GDS2S3DT D3GDS3S3S3 D3GDS3S3DT

lemma gr_g (y : Var 5 4 → ℝ) (hy : Dom y) :
    Gr (fun y => (tables (raw y) y).g) y ((tables (raw y) y).at1) := by
  refine Gr.of_lines ?_ fun u => ?_
  · have hp := pos y hy
    change DifferentiableAt ℝ (fun y => G (y (.inl iT)) (y (.inl iP)) (y (.inl (.inl 0))) (y (.inl (.inl 1))) (y (.inl (.inl 2))) (y (.inl (.inl 3))) (y (.inl (.inl 4))) (y (.inr 0)) (y (.inr 1)) (y (.inr 2)) (y (.inr 3)) (raw y 0) (raw y 1) (raw y 2) (raw y 3) (raw y 4) (raw y 5) (raw y 6) (raw y 7) (raw y 8) (raw y 9) (raw y 10)) y
    have d0 := raw_diff 0 y
    have q0 := hp.1
    have n0 := q0.ne'
    have d1 := raw_diff 1 y
    have q1 := hp.2.1
    have n1 := q1.ne'
    have d2 := raw_diff 2 y
    have q2 := hp.2.2.1
    have n2 := q2.ne'
    have d3 := raw_diff 3 y
    have q3 := hp.2.2.2.1
    have n3 := q3.ne'
    have d4 := raw_diff 4 y
    have q4 := hp.2.2.2.2.1
    have n4 := q4.ne'
    have d5 := raw_diff 5 y
    have q5 := hp.2.2.2.2.2.1
    have n5 := q5.ne'
    have d6 := raw_diff 6 y
    have q6 := hp.2.2.2.2.2.2.1
    have n6 := q6.ne'
    have d7 := raw_diff 7 y
    have q7 := hp.2.2.2.2.2.2.2.1
    have n7 := q7.ne'
    have d8 := raw_diff 8 y
    have q8 := hp.2.2.2.2.2.2.2.2.1
    have n8 := q8.ne'
    have d9 := raw_diff 9 y
    have q9 := hp.2.2.2.2.2.2.2.2.2.1
    have n9 := q9.ne'
    have d10 := raw_diff 10 y
    have q10 := hp.2.2.2.2.2.2.2.2.2.2
    have n10 := q10.ne'
    try simp only [H, S, G, zero_mul, mul_zero, add_zero, zero_add, sub_zero]
    have kG0 := kd_G0 y
    have kGR1 := kd_GR1 y
    have kGR2 := kd_GR2 y
    have kGR3 := kd_GR3 y
    have kGR4 := kd_GR4 y
    have kGR5 := kd_GR5 y
    have kGS1 := kd_GS1 y
    have kGS2 := kd_GS2 y
    have kGS3 := kd_GS3 y
    have kGS4 := kd_GS4 y
    have kGR1R1 := kd_GR1R1 y
    have kGR1R2 := kd_GR1R2 y
    have kGR1R3 := kd_GR1R3 y
    have kGR1R4 := kd_GR1R4 y
    have kGR1R5 := kd_GR1R5 y
    have kGR1S1 := kd_GR1S1 y
    have kGR1S2 := kd_GR1S2 y
    have kGR1S3 := kd_GR1S3 y
    have kGR1S4 := kd_GR1S4 y
    have kGR2R2 := kd_GR2R2 y
    have kGR2R3 := kd_GR2R3 y
    have kGR2R4 := kd_GR2R4 y
    have kGR2R5 := kd_GR2R5 y
    have kGR2S1 := kd_GR2S1 y
    have kGR2S2 := kd_GR2S2 y
    have kGR2S3 := kd_GR2S3 y
    have kGR2S4 := kd_GR2S4 y
    have kGR3R3 := kd_GR3R3 y
    have kGR3R4 := kd_GR3R4 y
    have kGR3R5 := kd_GR3R5 y
    have kGR3S1 := kd_GR3S1 y
    have kGR3S2 := kd_GR3S2 y
    have kGR3S3 := kd_GR3S3 y
    have kGR3S4 := kd_GR3S4 y
    have kGR4R4 := kd_GR4R4 y
    have kGR4R5 := kd_GR4R5 y
    have kGR4S1 := kd_GR4S1 y
    have kGR4S2 := kd_GR4S2 y
    have kGR4S3 := kd_GR4S3 y
    have kGR4S4 := kd_GR4S4 y
    have kGR5R5 := kd_GR5R5 y
    have kGR5S1 := kd_GR5S1 y
    have kGR5S2 := kd_GR5S2 y
    have kGR5S3 := kd_GR5S3 y
    have kGR5S4 := kd_GR5S4 y
    have kGS1S1 := kd_GS1S1 y
    have kGS1S2 := kd_GS1S2 y
    have kGS1S3 := kd_GS1S3 y
    have kGS1S4 := kd_GS1S4 y
    have kGS2S2 := kd_GS2S2 y
    have kGS2S3 := kd_GS2S3 y
    have kGS2S4 := kd_GS2S4 y
    have kGS3S3 := kd_GS3S3 y
    have kGS3S4 := kd_GS3S4 y
    have kGS4S4 := kd_GS4S4 y
    ddq
  · have hp := pos y hy
    have h := c_G (hl y u ((.inl iT))) (hl y u ((.inl iP))) (hl y u ((.inl (.inl 0)))) (hl y u ((.inl (.inl
        1)))) (hl y u ((.inl (.inl 2)))) (hl y u ((.inl (.inl 3)))) (hl y u ((.inl (.inl 4)))) (hl
        y u ((.inr 0))) (hl y u ((.inr 1))) (hl y u ((.inr 2))) (hl y u ((.inr 3))) (raw_line0 y
        u) (by simpa only [zero_mul, add_zero] using hp.1) (raw_line1 y u) (by simpa only
        [zero_mul, add_zero] using hp.2.1) (raw_line2 y u) (by simpa only [zero_mul, add_zero]
        using hp.2.2.1) (raw_line3 y u) (by simpa only [zero_mul, add_zero] using hp.2.2.2.1)
        (raw_line4 y u) (by simpa only [zero_mul, add_zero] using hp.2.2.2.2.1) (raw_line5 y u)
        (by simpa only [zero_mul, add_zero] using hp.2.2.2.2.2.1) (raw_line6 y u) (by simpa only
        [zero_mul, add_zero] using hp.2.2.2.2.2.2.1) (raw_line7 y u) (by simpa only [zero_mul,
        add_zero] using hp.2.2.2.2.2.2.2.1) (raw_line8 y u) (by simpa only [zero_mul, add_zero]
        using hp.2.2.2.2.2.2.2.2.1) (raw_line9 y u) (by simpa only [zero_mul, add_zero] using
        hp.2.2.2.2.2.2.2.2.2.1) (raw_line10 y u) (by simpa only [zero_mul, add_zero] using
        hp.2.2.2.2.2.2.2.2.2.2)
    try simp only [zero_mul, add_zero] at h
    refine h.congr_deriv ?_
    rw [sum_var]; simp only [Fin.sum_univ_five, Fin.sum_univ_four]; rfl

lemma gr_dgdr_0 (y : Var 5 4 → ℝ) (hy : Dom y) :
    Gr (fun y => (tables (raw y) y).dgdr 0) y ((tables (raw y) y).at2 (.inl (.inl 0))) := by
  refine Gr.of_lines ?_ fun u => ?_
  · have hp := pos y hy
    change DifferentiableAt ℝ (fun y => DGDR0 (y (.inl iT)) (y (.inl iP)) (y (.inl (.inl 0))) (y (.inl (.inl 1))) (y (.inl (.inl 2))) (y (.inl (.inl 3))) (y (.inl (.inl 4))) (y (.inr 0)) (y (.inr 1)) (y (.inr 2)) (y (.inr 3)) (raw y 0) (raw y 1) (raw y 9) (raw y 10)) y
    have d0 := raw_diff 0 y
    have q0 := hp.1
    have n0 := q0.ne'
    have d1 := raw_diff 1 y
    have q1 := hp.2.1
    have n1 := q1.ne'
    have d9 := raw_diff 9 y
    have q9 := hp.2.2.2.2.2.2.2.2.2.1
    have n9 := q9.ne'
    have d10 := raw_diff 10 y
    have q10 := hp.2.2.2.2.2.2.2.2.2.2
    have n10 := q10.ne'
    try simp only [DGDR0, zero_mul, mul_zero, add_zero, zero_add, sub_zero]
    have kGR1 := kd_GR1 y
    have kGR1R1 := kd_GR1R1 y
    have kGR1R2 := kd_GR1R2 y
    have kGR1R3 := kd_GR1R3 y
    have kGR1R4 := kd_GR1R4 y
    have kGR1R5 := kd_GR1R5 y
    have kGR1S1 := kd_GR1S1 y
    have kGR1S2 := kd_GR1S2 y
    have kGR1S3 := kd_GR1S3 y
    have kGR1S4 := kd_GR1S4 y
    ddq
  · have hp := pos y hy
    have h := c_DGDR0 (hl y u ((.inl iT))) (hl y u ((.inl iP))) (hl y u ((.inl (.inl 0)))) (hl y u ((.inl (.inl
        1)))) (hl y u ((.inl (.inl 2)))) (hl y u ((.inl (.inl 3)))) (hl y u ((.inl (.inl 4)))) (hl
        y u ((.inr 0))) (hl y u ((.inr 1))) (hl y u ((.inr 2))) (hl y u ((.inr 3))) (raw_line0 y
        u) (by simpa only [zero_mul, add_zero] using hp.1) (raw_line1 y u) (by simpa only
        [zero_mul, add_zero] using hp.2.1) (raw_line9 y u) (by simpa only [zero_mul, add_zero]
        using hp.2.2.2.2.2.2.2.2.2.1) (raw_line10 y u) (by simpa only [zero_mul, add_zero] using
        hp.2.2.2.2.2.2.2.2.2.2)
    try simp only [zero_mul, add_zero] at h
    refine h.congr_deriv ?_
    rw [sum_var]; simp only [Fin.sum_univ_five, Fin.sum_univ_four]; rfl

lemma gr_dgdr_1 (y : Var 5 4 → ℝ) (hy : Dom y) :
    Gr (fun y => (tables (raw y) y).dgdr 1) y ((tables (raw y) y).at2 (.inl (.inl 1))) := by
  refine Gr.of_lines ?_ fun u => ?_
  · have hp := pos y hy
    change DifferentiableAt ℝ (fun y => DGDR1 (y (.inl iT)) (y (.inl iP)) (y (.inl (.inl 0))) (y (.inl (.inl 1))) (y (.inl (.inl 2))) (y (.inl (.inl 3))) (y (.inl (.inl 4))) (y (.inr 0)) (y (.inr 1)) (y (.inr 2)) (y (.inr 3)) (raw y 2) (raw y 3) (raw y 9) (raw y 10)) y
    have d2 := raw_diff 2 y
    have q2 := hp.2.2.1
    have n2 := q2.ne'
    have d3 := raw_diff 3 y
    have q3 := hp.2.2.2.1
    have n3 := q3.ne'
    have d9 := raw_diff 9 y
    have q9 := hp.2.2.2.2.2.2.2.2.2.1
    have n9 := q9.ne'
    have d10 := raw_diff 10 y
    have q10 := hp.2.2.2.2.2.2.2.2.2.2
    have n10 := q10.ne'
    try simp only [DGDR1, zero_mul, mul_zero, add_zero, zero_add, sub_zero]
    have kGR2 := kd_GR2 y
    have kGR2R2 := kd_GR2R2 y
    have kGR1R2 := kd_GR1R2 y
    have kGR2R3 := kd_GR2R3 y
    have kGR2R4 := kd_GR2R4 y
    have kGR2R5 := kd_GR2R5 y
    have kGR2S1 := kd_GR2S1 y
    have kGR2S2 := kd_GR2S2 y
    have kGR2S3 := kd_GR2S3 y
    have kGR2S4 := kd_GR2S4 y
    ddq
  · have hp := pos y hy
    have h := c_DGDR1 (hl y u ((.inl iT))) (hl y u ((.inl iP))) (hl y u ((.inl (.inl 0)))) (hl y u ((.inl (.inl
        1)))) (hl y u ((.inl (.inl 2)))) (hl y u ((.inl (.inl 3)))) (hl y u ((.inl (.inl 4)))) (hl
        y u ((.inr 0))) (hl y u ((.inr 1))) (hl y u ((.inr 2))) (hl y u ((.inr 3))) (raw_line2 y
        u) (by simpa only [zero_mul, add_zero] using hp.2.2.1) (raw_line3 y u) (by simpa only
        [zero_mul, add_zero] using hp.2.2.2.1) (raw_line9 y u) (by simpa only [zero_mul, add_zero]
        using hp.2.2.2.2.2.2.2.2.2.1) (raw_line10 y u) (by simpa only [zero_mul, add_zero] using
        hp.2.2.2.2.2.2.2.2.2.2)
    try simp only [zero_mul, add_zero] at h
    refine h.congr_deriv ?_
    rw [sum_var]; simp only [Fin.sum_univ_five, Fin.sum_univ_four]; rfl

lemma gr_dgdr_2 (y : Var 5 4 → ℝ) (hy : Dom y) :
    Gr (fun y => (tables (raw y) y).dgdr 2) y ((tables (raw y) y).at2 (.inl (.inl 2))) := by
  refine Gr.of_lines ?_ fun u => ?_
  · have hp := pos y hy
    change DifferentiableAt ℝ (fun y => DGDR2 (y (.inl iT)) (y (.inl iP)) (y (.inl (.inl 0))) (y (.inl (.inl 1))) (y (.inl (.inl 2))) (y (.inl (.inl 3))) (y (.inl (.inl 4))) (y (.inr 0)) (y (.inr 1)) (y (.inr 2)) (y (.inr 3)) (raw y 4) (raw y 5) (raw y 9) (raw y 10)) y
    have d4 := raw_diff 4 y
    have q4 := hp.2.2.2.2.1
    have n4 := q4.ne'
    have d5 := raw_diff 5 y
    have q5 := hp.2.2.2.2.2.1
    have n5 := q5.ne'
    have d9 := raw_diff 9 y
    have q9 := hp.2.2.2.2.2.2.2.2.2.1
    have n9 := q9.ne'
    have d10 := raw_diff 10 y
    have q10 := hp.2.2.2.2.2.2.2.2.2.2
    have n10 := q10.ne'
    try simp only [DGDR2, zero_mul, mul_zero, add_zero, zero_add, sub_zero]
    have kGR3 := kd_GR3 y
    have kGR3R3 := kd_GR3R3 y
    have kGR1R3 := kd_GR1R3 y
    have kGR2R3 := kd_GR2R3 y
    have kGR3R4 := kd_GR3R4 y
    have kGR3R5 := kd_GR3R5 y
    have kGR3S1 := kd_GR3S1 y
    have kGR3S2 := kd_GR3S2 y
    have kGR3S3 := kd_GR3S3 y
    have kGR3S4 := kd_GR3S4 y
    ddq
  · have hp := pos y hy
    have h := c_DGDR2 (hl y u ((.inl iT))) (hl y u ((.inl iP))) (hl y u ((.inl (.inl 0)))) (hl y u ((.inl (.inl
        1)))) (hl y u ((.inl (.inl 2)))) (hl y u ((.inl (.inl 3)))) (hl y u ((.inl (.inl 4)))) (hl
        y u ((.inr 0))) (hl y u ((.inr 1))) (hl y u ((.inr 2))) (hl y u ((.inr 3))) (raw_line4 y
        u) (by simpa only [zero_mul, add_zero] using hp.2.2.2.2.1) (raw_line5 y u) (by simpa only
        [zero_mul, add_zero] using hp.2.2.2.2.2.1) (raw_line9 y u) (by simpa only [zero_mul,
        add_zero] using hp.2.2.2.2.2.2.2.2.2.1) (raw_line10 y u) (by simpa only [zero_mul,
        add_zero] using hp.2.2.2.2.2.2.2.2.2.2)
    try simp only [zero_mul, add_zero] at h
    refine h.congr_deriv ?_
    rw [sum_var]; simp only [Fin.sum_univ_five, Fin.sum_univ_four]; rfl

lemma gr_dgdr_3 (y : Var 5 4 → ℝ) (hy : Dom y) :
    Gr (fun y => (tables (raw y) y).dgdr 3) y ((tables (raw y) y).at2 (.inl (.inl 3))) := by
  refine Gr.of_lines ?_ fun u => ?_
  · have hp := pos y hy
    change DifferentiableAt ℝ (fun y => DGDR3 (y (.inl iT)) (y (.inl iP)) (y (.inl (.inl 0))) (y (.inl (.inl 1))) (y (.inl (.inl 2))) (y (.inl (.inl 3))) (y (.inl (.inl 4))) (y (.inr 0)) (y (.inr 1)) (y (.inr 2)) (y (.inr 3)) (raw y 6) (raw y 7) (raw y 9) (raw y 10)) y
    have d6 := raw_diff 6 y
    have q6 := hp.2.2.2.2.2.2.1
    have n6 := q6.ne'
    have d7 := raw_diff 7 y
    have q7 := hp.2.2.2.2.2.2.2.1
    have n7 := q7.ne'
    have d9 := raw_diff 9 y
    have q9 := hp.2.2.2.2.2.2.2.2.2.1
    have n9 := q9.ne'
    have d10 := raw_diff 10 y
    have q10 := hp.2.2.2.2.2.2.2.2.2.2
    have n10 := q10.ne'
    try simp only [DGDR3, zero_mul, mul_zero, add_zero, zero_add, sub_zero]
    have kGR4 := kd_GR4 y
    have kGR4R4 := kd_GR4R4 y
    have kGR1R4 := kd_GR1R4 y
    have kGR2R4 := kd_GR2R4 y
    have kGR3R4 := kd_GR3R4 y
    have kGR4R5 := kd_GR4R5 y
    have kGR4S1 := kd_GR4S1 y
    have kGR4S2 := kd_GR4S2 y
    have kGR4S3 := kd_GR4S3 y
    have kGR4S4 := kd_GR4S4 y
    ddq
  · have hp := pos y hy
    have h := c_DGDR3 (hl y u ((.inl iT))) (hl y u ((.inl iP))) (hl y u ((.inl (.inl 0)))) (hl y u ((.inl (.inl
        1)))) (hl y u ((.inl (.inl 2)))) (hl y u ((.inl (.inl 3)))) (hl y u ((.inl (.inl 4)))) (hl
        y u ((.inr 0))) (hl y u ((.inr 1))) (hl y u ((.inr 2))) (hl y u ((.inr 3))) (raw_line6 y
        u) (by simpa only [zero_mul, add_zero] using hp.2.2.2.2.2.2.1) (raw_line7 y u) (by simpa
        only [zero_mul, add_zero] using hp.2.2.2.2.2.2.2.1) (raw_line9 y u) (by simpa only
        [zero_mul, add_zero] using hp.2.2.2.2.2.2.2.2.2.1) (raw_line10 y u) (by simpa only
        [zero_mul, add_zero] using hp.2.2.2.2.2.2.2.2.2.2)
    try simp only [zero_mul, add_zero] at h
    refine h.congr_deriv ?_
    rw [sum_var]; simp only [Fin.sum_univ_five, Fin.sum_univ_four]; rfl

lemma gr_dgdr_4 (y : Var 5 4 → ℝ) (hy : Dom y) :
    Gr (fun y => (tables (raw y) y).dgdr 4) y ((tables (raw y) y).at2 (.inl (.inl 4))) := by
  refine Gr.of_lines ?_ fun u => ?_
  · have hp := pos y hy
    change DifferentiableAt ℝ (fun y => DGDR4 (y (.inl iT)) (y (.inl iP)) (y (.inl (.inl 0))) (y (.inl (.inl 1))) (y (.inl (.inl 2))) (y (.inl (.inl 3))) (y (.inl (.inl 4))) (y (.inr 0)) (y (.inr 1)) (y (.inr 2)) (y (.inr 3)) (raw y 8) (raw y 10)) y
    have d8 := raw_diff 8 y
    have q8 := hp.2.2.2.2.2.2.2.2.1
    have n8 := q8.ne'
    have d10 := raw_diff 10 y
    have q10 := hp.2.2.2.2.2.2.2.2.2.2
    have n10 := q10.ne'
    try simp only [DGDR4, zero_mul, mul_zero, add_zero, zero_add, sub_zero]
    have kGR5 := kd_GR5 y
    have kGR5R5 := kd_GR5R5 y
    have kGR1R5 := kd_GR1R5 y
    have kGR2R5 := kd_GR2R5 y
    have kGR3R5 := kd_GR3R5 y
    have kGR4R5 := kd_GR4R5 y
    have kGR5S1 := kd_GR5S1 y
    have kGR5S2 := kd_GR5S2 y
    have kGR5S3 := kd_GR5S3 y
    have kGR5S4 := kd_GR5S4 y
    ddq
  · have hp := pos y hy
    have h := c_DGDR4 (hl y u ((.inl iT))) (hl y u ((.inl iP))) (hl y u ((.inl (.inl 0)))) (hl y u ((.inl (.inl
        1)))) (hl y u ((.inl (.inl 2)))) (hl y u ((.inl (.inl 3)))) (hl y u ((.inl (.inl 4)))) (hl
        y u ((.inr 0))) (hl y u ((.inr 1))) (hl y u ((.inr 2))) (hl y u ((.inr 3))) (raw_line8 y
        u) (by simpa only [zero_mul, add_zero] using hp.2.2.2.2.2.2.2.2.1) (raw_line10 y u) (by
        simpa only [zero_mul, add_zero] using hp.2.2.2.2.2.2.2.2.2.2)
    try simp only [zero_mul, add_zero] at h
    refine h.congr_deriv ?_
    rw [sum_var]; simp only [Fin.sum_univ_five, Fin.sum_univ_four]; rfl

lemma gr_dgds_0 (y : Var 5 4 → ℝ) (hy : Dom y) :
    Gr (fun y => (tables (raw y) y).dgds 0) y ((tables (raw y) y).at2 (.inr 0)) := by
  refine Gr.of_lines ?_ fun u => ?_
  · have hp := pos y hy
    change DifferentiableAt ℝ (fun y => DGDS0 (y (.inl iT)) (y (.inl iP)) (y (.inl (.inl 0))) (y (.inl (.inl 1))) (y (.inl (.inl 2))) (y (.inl (.inl 3))) (y (.inl (.inl 4))) (y (.inr 0)) (y (.inr 1)) (y (.inr 2)) (y (.inr 3)) (raw y 0) (raw y 1) (raw y 9) (raw y 10)) y
    have d0 := raw_diff 0 y
    have q0 := hp.1
    have n0 := q0.ne'
    have d1 := raw_diff 1 y
    have q1 := hp.2.1
    have n1 := q1.ne'
    have d9 := raw_diff 9 y
    have q9 := hp.2.2.2.2.2.2.2.2.2.1
    have n9 := q9.ne'
    have d10 := raw_diff 10 y
    have q10 := hp.2.2.2.2.2.2.2.2.2.2
    have n10 := q10.ne'
    try simp only [DGDS0, zero_mul, mul_zero, add_zero, zero_add, sub_zero]
    have kGS1 := kd_GS1 y
    have kGS1S1 := kd_GS1S1 y
    have kGR1S1 := kd_GR1S1 y
    have kGR2S1 := kd_GR2S1 y
    have kGR3S1 := kd_GR3S1 y
    have kGR4S1 := kd_GR4S1 y
    have kGR5S1 := kd_GR5S1 y
    have kGS1S2 := kd_GS1S2 y
    have kGS1S3 := kd_GS1S3 y
    have kGS1S4 := kd_GS1S4 y
    ddq
  · have hp := pos y hy
    have h := c_DGDS0 (hl y u ((.inl iT))) (hl y u ((.inl iP))) (hl y u ((.inl (.inl 0)))) (hl y u ((.inl (.inl
        1)))) (hl y u ((.inl (.inl 2)))) (hl y u ((.inl (.inl 3)))) (hl y u ((.inl (.inl 4)))) (hl
        y u ((.inr 0))) (hl y u ((.inr 1))) (hl y u ((.inr 2))) (hl y u ((.inr 3))) (raw_line0 y
        u) (by simpa only [zero_mul, add_zero] using hp.1) (raw_line1 y u) (by simpa only
        [zero_mul, add_zero] using hp.2.1) (raw_line9 y u) (by simpa only [zero_mul, add_zero]
        using hp.2.2.2.2.2.2.2.2.2.1) (raw_line10 y u) (by simpa only [zero_mul, add_zero] using
        hp.2.2.2.2.2.2.2.2.2.2)
    try simp only [zero_mul, add_zero] at h
    refine h.congr_deriv ?_
    rw [sum_var]; simp only [Fin.sum_univ_five, Fin.sum_univ_four]; rfl

lemma gr_dgds_1 (y : Var 5 4 → ℝ) (hy : Dom y) :
    Gr (fun y => (tables (raw y) y).dgds 1) y ((tables (raw y) y).at2 (.inr 1)) := by
  refine Gr.of_lines ?_ fun u => ?_
  · have hp := pos y hy
    change DifferentiableAt ℝ (fun y => DGDS1 (y (.inl iT)) (y (.inl iP)) (y (.inl (.inl 0))) (y (.inl (.inl 1))) (y (.inl (.inl 2))) (y (.inl (.inl 3))) (y (.inl (.inl 4))) (y (.inr 0)) (y (.inr 1)) (y (.inr 2)) (y (.inr 3)) (raw y 2) (raw y 3) (raw y 9) (raw y 10)) y
    have d2 := raw_diff 2 y
    have q2 := hp.2.2.1
    have n2 := q2.ne'
    have d3 := raw_diff 3 y
    have q3 := hp.2.2.2.1
    have n3 := q3.ne'
    have d9 := raw_diff 9 y
    have q9 := hp.2.2.2.2.2.2.2.2.2.1
    have n9 := q9.ne'
    have d10 := raw_diff 10 y
    have q10 := hp.2.2.2.2.2.2.2.2.2.2
    have n10 := q10.ne'
    try simp only [DGDS1, zero_mul, mul_zero, add_zero, zero_add, sub_zero]
    have kGS2 := kd_GS2 y
    have kGS2S2 := kd_GS2S2 y
    have kGR1S2 := kd_GR1S2 y
    have kGR2S2 := kd_GR2S2 y
    have kGR3S2 := kd_GR3S2 y
    have kGR4S2 := kd_GR4S2 y
    have kGR5S2 := kd_GR5S2 y
    have kGS1S2 := kd_GS1S2 y
    have kGS2S3 := kd_GS2S3 y
    have kGS2S4 := kd_GS2S4 y
    ddq
  · have hp := pos y hy
    have h := c_DGDS1 (hl y u ((.inl iT))) (hl y u ((.inl iP))) (hl y u ((.inl (.inl 0)))) (hl y u ((.inl (.inl
        1)))) (hl y u ((.inl (.inl 2)))) (hl y u ((.inl (.inl 3)))) (hl y u ((.inl (.inl 4)))) (hl
        y u ((.inr 0))) (hl y u ((.inr 1))) (hl y u ((.inr 2))) (hl y u ((.inr 3))) (raw_line2 y
        u) (by simpa only [zero_mul, add_zero] using hp.2.2.1) (raw_line3 y u) (by simpa only
        [zero_mul, add_zero] using hp.2.2.2.1) (raw_line9 y u) (by simpa only [zero_mul, add_zero]
        using hp.2.2.2.2.2.2.2.2.2.1) (raw_line10 y u) (by simpa only [zero_mul, add_zero] using
        hp.2.2.2.2.2.2.2.2.2.2)
    try simp only [zero_mul, add_zero] at h
    refine h.congr_deriv ?_
    rw [sum_var]; simp only [Fin.sum_univ_five, Fin.sum_univ_four]; rfl

lemma gr_dgds_2 (y : Var 5 4 → ℝ) (hy : Dom y) :
    Gr (fun y => (tables (raw y) y).dgds 2) y ((tables (raw y) y).at2 (.inr 2)) := by
  refine Gr.of_lines ?_ fun u => ?_
  · have hp := pos y hy
    change DifferentiableAt ℝ (fun y => DGDS2 (y (.inl iT)) (y (.inl iP)) (y (.inl (.inl 0))) (y (.inl (.inl 1))) (y (.inl (.inl 2))) (y (.inl (.inl 3))) (y (.inl (.inl 4))) (y (.inr 0)) (y (.inr 1)) (y (.inr 2)) (y (.inr 3)) (raw y 4) (raw y 5) (raw y 9) (raw y 10)) y
    have d4 := raw_diff 4 y
    have q4 := hp.2.2.2.2.1
    have n4 := q4.ne'
    have d5 := raw_diff 5 y
    have q5 := hp.2.2.2.2.2.1
    have n5 := q5.ne'
    have d9 := raw_diff 9 y
    have q9 := hp.2.2.2.2.2.2.2.2.2.1
    have n9 := q9.ne'
    have d10 := raw_diff 10 y
    have q10 := hp.2.2.2.2.2.2.2.2.2.2
    have n10 := q10.ne'
    try simp only [DGDS2, zero_mul, mul_zero, add_zero, zero_add, sub_zero]
    have kGS3 := kd_GS3 y
    have kGS3S3 := kd_GS3S3 y
    have kGR1S3 := kd_GR1S3 y
    have kGR2S3 := kd_GR2S3 y
    have kGR3S3 := kd_GR3S3 y
    have kGR4S3 := kd_GR4S3 y
    have kGR5S3 := kd_GR5S3 y
    have kGS1S3 := kd_GS1S3 y
    have kGS2S3 := kd_GS2S3 y
    have kGS3S4 := kd_GS3S4 y
    ddq
  · have hp := pos y hy
    have h := c_DGDS2 (hl y u ((.inl iT))) (hl y u ((.inl iP))) (hl y u ((.inl (.inl 0)))) (hl y u ((.inl (.inl
        1)))) (hl y u ((.inl (.inl 2)))) (hl y u ((.inl (.inl 3)))) (hl y u ((.inl (.inl 4)))) (hl
        y u ((.inr 0))) (hl y u ((.inr 1))) (hl y u ((.inr 2))) (hl y u ((.inr 3))) (raw_line4 y
        u) (by simpa only [zero_mul, add_zero] using hp.2.2.2.2.1) (raw_line5 y u) (by simpa only
        [zero_mul, add_zero] using hp.2.2.2.2.2.1) (raw_line9 y u) (by simpa only [zero_mul,
        add_zero] using hp.2.2.2.2.2.2.2.2.2.1) (raw_line10 y u) (by simpa only [zero_mul,
        add_zero] using hp.2.2.2.2.2.2.2.2.2.2)
    try simp only [zero_mul, add_zero] at h
    refine h.congr_deriv ?_
    rw [sum_var]; simp only [Fin.sum_univ_five, Fin.sum_univ_four]; rfl

lemma gr_dgds_3 (y : Var 5 4 → ℝ) (hy : Dom y) :
    Gr (fun y => (tables (raw y) y).dgds 3) y ((tables (raw y) y).at2 (.inr 3)) := by
  refine Gr.of_lines ?_ fun u => ?_
  · have hp := pos y hy
    change DifferentiableAt ℝ (fun y => DGDS3 (y (.inl iT)) (y (.inl iP)) (y (.inl (.inl 0))) (y (.inl (.inl 1))) (y (.inl (.inl 2))) (y (.inl (.inl 3))) (y (.inl (.inl 4))) (y (.inr 0)) (y (.inr 1)) (y (.inr 2)) (y (.inr 3)) (raw y 6) (raw y 7) (raw y 9) (raw y 10)) y
    have d6 := raw_diff 6 y
    have q6 := hp.2.2.2.2.2.2.1
    have n6 := q6.ne'
    have d7 := raw_diff 7 y
    have q7 := hp.2.2.2.2.2.2.2.1
    have n7 := q7.ne'
    have d9 := raw_diff 9 y
    have q9 := hp.2.2.2.2.2.2.2.2.2.1
    have n9 := q9.ne'
    have d10 := raw_diff 10 y
    have q10 := hp.2.2.2.2.2.2.2.2.2.2
    have n10 := q10.ne'
    try simp only [DGDS3, zero_mul, mul_zero, add_zero, zero_add, sub_zero]
    have kGS4 := kd_GS4 y
    have kGS4S4 := kd_GS4S4 y
    have kGR1S4 := kd_GR1S4 y
    have kGR2S4 := kd_GR2S4 y
    have kGR3S4 := kd_GR3S4 y
    have kGR4S4 := kd_GR4S4 y
    have kGR5S4 := kd_GR5S4 y
    have kGS1S4 := kd_GS1S4 y
    have kGS2S4 := kd_GS2S4 y
    have kGS3S4 := kd_GS3S4 y
    ddq
  · have hp := pos y hy
    have h := c_DGDS3 (hl y u ((.inl iT))) (hl y u ((.inl iP))) (hl y u ((.inl (.inl 0)))) (hl y u ((.inl (.inl
        1)))) (hl y u ((.inl (.inl 2)))) (hl y u ((.inl (.inl 3)))) (hl y u ((.inl (.inl 4)))) (hl
        y u ((.inr 0))) (hl y u ((.inr 1))) (hl y u ((.inr 2))) (hl y u ((.inr 3))) (raw_line6 y
        u) (by simpa only [zero_mul, add_zero] using hp.2.2.2.2.2.2.1) (raw_line7 y u) (by simpa
        only [zero_mul, add_zero] using hp.2.2.2.2.2.2.2.1) (raw_line9 y u) (by simpa only
        [zero_mul, add_zero] using hp.2.2.2.2.2.2.2.2.2.1) (raw_line10 y u) (by simpa only
        [zero_mul, add_zero] using hp.2.2.2.2.2.2.2.2.2.2)
    try simp only [zero_mul, add_zero] at h
    refine h.congr_deriv ?_
    rw [sum_var]; simp only [Fin.sum_univ_five, Fin.sum_univ_four]; rfl

lemma gr_dgdt (y : Var 5 4 → ℝ) (hy : Dom y) :
    Gr (fun y => (tables (raw y) y).dgdt) y ((tables (raw y) y).at2 (.inl iT)) := by
  refine Gr.of_lines ?_ fun u => ?_
  · have hp := pos y hy
    change DifferentiableAt ℝ (fun y => DGDT (raw y 0) (raw y 1) (raw y 2) (raw y 3) (raw y 4) (raw y 5) (raw y 6) (raw y 7) (raw y 8) (raw y 9) (raw y 10)) y
    have d0 := raw_diff 0 y
    have q0 := hp.1
    have n0 := q0.ne'
    have d1 := raw_diff 1 y
    have q1 := hp.2.1
    have n1 := q1.ne'
    have d2 := raw_diff 2 y
    have q2 := hp.2.2.1
    have n2 := q2.ne'
    have d3 := raw_diff 3 y
    have q3 := hp.2.2.2.1
    have n3 := q3.ne'
    have d4 := raw_diff 4 y
    have q4 := hp.2.2.2.2.1
    have n4 := q4.ne'
    have d5 := raw_diff 5 y
    have q5 := hp.2.2.2.2.2.1
    have n5 := q5.ne'
    have d6 := raw_diff 6 y
    have q6 := hp.2.2.2.2.2.2.1
    have n6 := q6.ne'
    have d7 := raw_diff 7 y
    have q7 := hp.2.2.2.2.2.2.2.1
    have n7 := q7.ne'
    have d8 := raw_diff 8 y
    have q8 := hp.2.2.2.2.2.2.2.2.1
    have n8 := q8.ne'
    have d9 := raw_diff 9 y
    have q9 := hp.2.2.2.2.2.2.2.2.2.1
    have n9 := q9.ne'
    have d10 := raw_diff 10 y
    have q10 := hp.2.2.2.2.2.2.2.2.2.2
    have n10 := q10.ne'
    try simp only [S, DGDT, zero_mul, mul_zero, add_zero, zero_add, sub_zero]
    ddq
  · have hp := pos y hy
    have h := c_DGDT (hl y u ((.inl iT))) (hl y u ((.inl iP))) (hl y u ((.inl (.inl 0)))) (hl y u ((.inl (.inl
        1)))) (hl y u ((.inl (.inl 2)))) (hl y u ((.inl (.inl 3)))) (hl y u ((.inl (.inl 4)))) (hl
        y u ((.inr 0))) (hl y u ((.inr 1))) (hl y u ((.inr 2))) (hl y u ((.inr 3))) (raw_line0 y
        u) (by simpa only [zero_mul, add_zero] using hp.1) (raw_line1 y u) (by simpa only
        [zero_mul, add_zero] using hp.2.1) (raw_line2 y u) (by simpa only [zero_mul, add_zero]
        using hp.2.2.1) (raw_line3 y u) (by simpa only [zero_mul, add_zero] using hp.2.2.2.1)
        (raw_line4 y u) (by simpa only [zero_mul, add_zero] using hp.2.2.2.2.1) (raw_line5 y u)
        (by simpa only [zero_mul, add_zero] using hp.2.2.2.2.2.1) (raw_line6 y u) (by simpa only
        [zero_mul, add_zero] using hp.2.2.2.2.2.2.1) (raw_line7 y u) (by simpa only [zero_mul,
        add_zero] using hp.2.2.2.2.2.2.2.1) (raw_line8 y u) (by simpa only [zero_mul, add_zero]
        using hp.2.2.2.2.2.2.2.2.1) (raw_line9 y u) (by simpa only [zero_mul, add_zero] using
        hp.2.2.2.2.2.2.2.2.2.1) (raw_line10 y u) (by simpa only [zero_mul, add_zero] using
        hp.2.2.2.2.2.2.2.2.2.2)
    try simp only [zero_mul, add_zero] at h
    refine h.congr_deriv ?_
    rw [sum_var]; simp only [Fin.sum_univ_five, Fin.sum_univ_four]; rfl

lemma gr_dgdp (y : Var 5 4 → ℝ) (hy : Dom y) :
    Gr (fun y => (tables (raw y) y).dgdp) y ((tables (raw y) y).at2 (.inl iP)) := by
  refine Gr.of_lines ?_ fun u => ?_
  · have hp := pos y hy
    change DifferentiableAt ℝ (fun y => DGDP (y (.inl (.inl 0))) (y (.inl (.inl 1))) (y (.inl (.inl 2))) (y (.inl (.inl 3))) (y (.inl (.inl 4))) (y (.inr 0)) (y (.inr 1)) (y (.inr 2)) (y (.inr 3))) y
    try simp only [V, DGDP, zero_mul, mul_zero, add_zero, zero_add, sub_zero]
    ddq
  · have hp := pos y hy
    have h := c_DGDP (hl y u ((.inl iT))) (hl y u ((.inl iP))) (hl y u ((.inl (.inl 0)))) (hl y u ((.inl (.inl
        1)))) (hl y u ((.inl (.inl 2)))) (hl y u ((.inl (.inl 3)))) (hl y u ((.inl (.inl 4)))) (hl
        y u ((.inr 0))) (hl y u ((.inr 1))) (hl y u ((.inr 2))) (hl y u ((.inr 3)))
    try simp only [zero_mul, add_zero] at h
    refine h.congr_deriv ?_
    rw [sum_var]; simp only [Fin.sum_univ_five, Fin.sum_univ_four]; rfl

lemma gr_d2gdr2_0_0 (y : Var 5 4 → ℝ) (hy : Dom y) :
    Gr (fun y => (tables (raw y) y).d2gdr2 0 0) y ((tables (raw y) y).at3 (.inl (.inl 0)) (.inl (.inl 0))) := by
  refine Gr.of_lines ?_ fun u => ?_
  · have hp := pos y hy
    change DifferentiableAt ℝ (fun y => D2GDR0R0 (y (.inl iT)) (y (.inl iP)) (raw y 0) (raw y 1) (raw y 9) (raw y 10)) y
    have d0 := raw_diff 0 y
    have q0 := hp.1
    have n0 := q0.ne'
    have d1 := raw_diff 1 y
    have q1 := hp.2.1
    have n1 := q1.ne'
    have d9 := raw_diff 9 y
    have q9 := hp.2.2.2.2.2.2.2.2.2.1
    have n9 := q9.ne'
    have d10 := raw_diff 10 y
    have q10 := hp.2.2.2.2.2.2.2.2.2.2
    have n10 := q10.ne'
    try simp only [D2GDR0R0, zero_mul, mul_zero, add_zero, zero_add, sub_zero]
    have kGR1R1 := kd_GR1R1 y
    ddq
  · have hp := pos y hy
    have h := c_D2GDR0R0 (hl y u ((.inl iT))) (hl y u ((.inl iP))) (hl y u ((.inl (.inl 0)))) (hl y u ((.inl (.inl
        1)))) (hl y u ((.inl (.inl 2)))) (hl y u ((.inl (.inl 3)))) (hl y u ((.inl (.inl 4)))) (hl
        y u ((.inr 0))) (hl y u ((.inr 1))) (hl y u ((.inr 2))) (hl y u ((.inr 3))) (raw_line0 y
        u) (by simpa only [zero_mul, add_zero] using hp.1) (raw_line1 y u) (by simpa only
        [zero_mul, add_zero] using hp.2.1) (raw_line9 y u) (by simpa only [zero_mul, add_zero]
        using hp.2.2.2.2.2.2.2.2.2.1) (raw_line10 y u) (by simpa only [zero_mul, add_zero] using
        hp.2.2.2.2.2.2.2.2.2.2)
    try simp only [zero_mul, add_zero] at h
    refine h.congr_deriv ?_
    rw [sum_var]; simp only [Fin.sum_univ_five, Fin.sum_univ_four]; rfl

lemma gr_d2gdr2_0_1 (y : Var 5 4 → ℝ) (hy : Dom y) :
    Gr (fun y => (tables (raw y) y).d2gdr2 0 1) y ((tables (raw y) y).at3 (.inl (.inl 0)) (.inl (.inl 1))) := by
  refine Gr.of_lines ?_ fun u => ?_
  · have hp := pos y hy
    change DifferentiableAt ℝ (fun y => D2GDR0R1 (y (.inl iT)) (y (.inl iP)) (raw y 9) (raw y 10)) y
    have d9 := raw_diff 9 y
    have q9 := hp.2.2.2.2.2.2.2.2.2.1
    have n9 := q9.ne'
    have d10 := raw_diff 10 y
    have q10 := hp.2.2.2.2.2.2.2.2.2.2
    have n10 := q10.ne'
    try simp only [D2GDR0R1, zero_mul, mul_zero, add_zero, zero_add, sub_zero]
    have kGR1R2 := kd_GR1R2 y
    ddq
  · have hp := pos y hy
    have h := c_D2GDR0R1 (hl y u ((.inl iT))) (hl y u ((.inl iP))) (hl y u ((.inl (.inl 0)))) (hl y u ((.inl (.inl
        1)))) (hl y u ((.inl (.inl 2)))) (hl y u ((.inl (.inl 3)))) (hl y u ((.inl (.inl 4)))) (hl
        y u ((.inr 0))) (hl y u ((.inr 1))) (hl y u ((.inr 2))) (hl y u ((.inr 3))) (raw_line9 y
        u) (by simpa only [zero_mul, add_zero] using hp.2.2.2.2.2.2.2.2.2.1) (raw_line10 y u) (by
        simpa only [zero_mul, add_zero] using hp.2.2.2.2.2.2.2.2.2.2)
    try simp only [zero_mul, add_zero] at h
    refine h.congr_deriv ?_
    rw [sum_var]; simp only [Fin.sum_univ_five, Fin.sum_univ_four]; rfl

lemma gr_d2gdr2_0_2 (y : Var 5 4 → ℝ) (hy : Dom y) :
    Gr (fun y => (tables (raw y) y).d2gdr2 0 2) y ((tables (raw y) y).at3 (.inl (.inl 0)) (.inl (.inl 2))) := by
  refine Gr.of_lines ?_ fun u => ?_
  · have hp := pos y hy
    change DifferentiableAt ℝ (fun y => D2GDR0R2 (y (.inl iT)) (y (.inl iP)) (raw y 9) (raw y 10)) y
    have d9 := raw_diff 9 y
    have q9 := hp.2.2.2.2.2.2.2.2.2.1
    have n9 := q9.ne'
    have d10 := raw_diff 10 y
    have q10 := hp.2.2.2.2.2.2.2.2.2.2
    have n10 := q10.ne'
    try simp only [D2GDR0R2, zero_mul, mul_zero, add_zero, zero_add, sub_zero]
    have kGR1R3 := kd_GR1R3 y
    ddq
  · have hp := pos y hy
    have h := c_D2GDR0R2 (hl y u ((.inl iT))) (hl y u ((.inl iP))) (hl y u ((.inl (.inl 0)))) (hl y u ((.inl (.inl
        1)))) (hl y u ((.inl (.inl 2)))) (hl y u ((.inl (.inl 3)))) (hl y u ((.inl (.inl 4)))) (hl
        y u ((.inr 0))) (hl y u ((.inr 1))) (hl y u ((.inr 2))) (hl y u ((.inr 3))) (raw_line9 y
        u) (by simpa only [zero_mul, add_zero] using hp.2.2.2.2.2.2.2.2.2.1) (raw_line10 y u) (by
        simpa only [zero_mul, add_zero] using hp.2.2.2.2.2.2.2.2.2.2)
    try simp only [zero_mul, add_zero] at h
    refine h.congr_deriv ?_
    rw [sum_var]; simp only [Fin.sum_univ_five, Fin.sum_univ_four]; rfl

lemma gr_d2gdr2_0_3 (y : Var 5 4 → ℝ) (hy : Dom y) :
    Gr (fun y => (tables (raw y) y).d2gdr2 0 3) y ((tables (raw y) y).at3 (.inl (.inl 0)) (.inl (.inl 3))) := by
  refine Gr.of_lines ?_ fun u => ?_
  · have hp := pos y hy
    change DifferentiableAt ℝ (fun y => D2GDR0R3 (y (.inl iT)) (y (.inl iP)) (raw y 9) (raw y 10)) y
    have d9 := raw_diff 9 y
    have q9 := hp.2.2.2.2.2.2.2.2.2.1
    have n9 := q9.ne'
    have d10 := raw_diff 10 y
    have q10 := hp.2.2.2.2.2.2.2.2.2.2
    have n10 := q10.ne'
    try simp only [D2GDR0R3, zero_mul, mul_zero, add_zero, zero_add, sub_zero]
    have kGR1R4 := kd_GR1R4 y
    ddq
  · have hp := pos y hy
    have h := c_D2GDR0R3 (hl y u ((.inl iT))) (hl y u ((.inl iP))) (hl y u ((.inl (.inl 0)))) (hl y u ((.inl (.inl
        1)))) (hl y u ((.inl (.inl 2)))) (hl y u ((.inl (.inl 3)))) (hl y u ((.inl (.inl 4)))) (hl
        y u ((.inr 0))) (hl y u ((.inr 1))) (hl y u ((.inr 2))) (hl y u ((.inr 3))) (raw_line9 y
        u) (by simpa only [zero_mul, add_zero] using hp.2.2.2.2.2.2.2.2.2.1) (raw_line10 y u) (by
        simpa only [zero_mul, add_zero] using hp.2.2.2.2.2.2.2.2.2.2)
    try simp only [zero_mul, add_zero] at h
    refine h.congr_deriv ?_
    rw [sum_var]; simp only [Fin.sum_univ_five, Fin.sum_univ_four]; rfl

lemma gr_d2gdr2_0_4 (y : Var 5 4 → ℝ) (hy : Dom y) :
    Gr (fun y => (tables (raw y) y).d2gdr2 0 4) y ((tables (raw y) y).at3 (.inl (.inl 0)) (.inl (.inl 4))) := by
  refine Gr.of_lines ?_ fun u => ?_
  · have hp := pos y hy
    change DifferentiableAt ℝ (fun y => D2GDR0R4 (y (.inl iT)) (y (.inl iP)) (raw y 10)) y
    have d10 := raw_diff 10 y
    have q10 := hp.2.2.2.2.2.2.2.2.2.2
    have n10 := q10.ne'
    try simp only [D2GDR0R4, zero_mul, mul_zero, add_zero, zero_add, sub_zero]
    have kGR1R5 := kd_GR1R5 y
    ddq
  · have hp := pos y hy
    have h := c_D2GDR0R4 (hl y u ((.inl iT))) (hl y u ((.inl iP))) (hl y u ((.inl (.inl 0)))) (hl y u ((.inl (.inl
        1)))) (hl y u ((.inl (.inl 2)))) (hl y u ((.inl (.inl 3)))) (hl y u ((.inl (.inl 4)))) (hl
        y u ((.inr 0))) (hl y u ((.inr 1))) (hl y u ((.inr 2))) (hl y u ((.inr 3))) (raw_line10 y
        u) (by simpa only [zero_mul, add_zero] using hp.2.2.2.2.2.2.2.2.2.2)
    try simp only [zero_mul, add_zero] at h
    refine h.congr_deriv ?_
    rw [sum_var]; simp only [Fin.sum_univ_five, Fin.sum_univ_four]; rfl

lemma gr_d2gdrds_0_0 (y : Var 5 4 → ℝ) (hy : Dom y) :
    Gr (fun y => (tables (raw y) y).d2gdrds 0 0) y ((tables (raw y) y).at3 (.inl (.inl 0)) (.inr 0)) := by
  refine Gr.of_lines ?_ fun u => ?_
  · have hp := pos y hy
    change DifferentiableAt ℝ (fun y => D2GDR0S0 (y (.inl iT)) (y (.inl iP)) (raw y 0) (raw y 1) (raw y 9) (raw y 10)) y
    have d0 := raw_diff 0 y
    have q0 := hp.1
    have n0 := q0.ne'
    have d1 := raw_diff 1 y
    have q1 := hp.2.1
    have n1 := q1.ne'
    have d9 := raw_diff 9 y
    have q9 := hp.2.2.2.2.2.2.2.2.2.1
    have n9 := q9.ne'
    have d10 := raw_diff 10 y
    have q10 := hp.2.2.2.2.2.2.2.2.2.2
    have n10 := q10.ne'
    try simp only [D2GDR0S0, zero_mul, mul_zero, add_zero, zero_add, sub_zero]
    have kGR1S1 := kd_GR1S1 y
    ddq
  · have hp := pos y hy
    have h := c_D2GDR0S0 (hl y u ((.inl iT))) (hl y u ((.inl iP))) (hl y u ((.inl (.inl 0)))) (hl y u ((.inl (.inl
        1)))) (hl y u ((.inl (.inl 2)))) (hl y u ((.inl (.inl 3)))) (hl y u ((.inl (.inl 4)))) (hl
        y u ((.inr 0))) (hl y u ((.inr 1))) (hl y u ((.inr 2))) (hl y u ((.inr 3))) (raw_line0 y
        u) (by simpa only [zero_mul, add_zero] using hp.1) (raw_line1 y u) (by simpa only
        [zero_mul, add_zero] using hp.2.1) (raw_line9 y u) (by simpa only [zero_mul, add_zero]
        using hp.2.2.2.2.2.2.2.2.2.1) (raw_line10 y u) (by simpa only [zero_mul, add_zero] using
        hp.2.2.2.2.2.2.2.2.2.2)
    try simp only [zero_mul, add_zero] at h
    refine h.congr_deriv ?_
    rw [sum_var]; simp only [Fin.sum_univ_five, Fin.sum_univ_four]; rfl

lemma gr_d2gdrds_0_1 (y : Var 5 4 → ℝ) (hy : Dom y) :
    Gr (fun y => (tables (raw y) y).d2gdrds 0 1) y ((tables (raw y) y).at3 (.inl (.inl 0)) (.inr 1)) := by
  refine Gr.of_lines ?_ fun u => ?_
  · have hp := pos y hy
    change DifferentiableAt ℝ (fun y => D2GDR0S1 (y (.inl iT)) (y (.inl iP)) (raw y 9) (raw y 10)) y
    have d9 := raw_diff 9 y
    have q9 := hp.2.2.2.2.2.2.2.2.2.1
    have n9 := q9.ne'
    have d10 := raw_diff 10 y
    have q10 := hp.2.2.2.2.2.2.2.2.2.2
    have n10 := q10.ne'
    try simp only [D2GDR0S1, zero_mul, mul_zero, add_zero, zero_add, sub_zero]
    have kGR1S2 := kd_GR1S2 y
    ddq
  · have hp := pos y hy
    have h := c_D2GDR0S1 (hl y u ((.inl iT))) (hl y u ((.inl iP))) (hl y u ((.inl (.inl 0)))) (hl y u ((.inl (.inl
        1)))) (hl y u ((.inl (.inl 2)))) (hl y u ((.inl (.inl 3)))) (hl y u ((.inl (.inl 4)))) (hl
        y u ((.inr 0))) (hl y u ((.inr 1))) (hl y u ((.inr 2))) (hl y u ((.inr 3))) (raw_line9 y
        u) (by simpa only [zero_mul, add_zero] using hp.2.2.2.2.2.2.2.2.2.1) (raw_line10 y u) (by
        simpa only [zero_mul, add_zero] using hp.2.2.2.2.2.2.2.2.2.2)
    try simp only [zero_mul, add_zero] at h
    refine h.congr_deriv ?_
    rw [sum_var]; simp only [Fin.sum_univ_five, Fin.sum_univ_four]; rfl

lemma gr_d2gdrds_0_2 (y : Var 5 4 → ℝ) (hy : Dom y) :
    Gr (fun y => (tables (raw y) y).d2gdrds 0 2) y ((tables (raw y) y).at3 (.inl (.inl 0)) (.inr 2)) := by
  refine Gr.of_lines ?_ fun u => ?_
  · have hp := pos y hy
    change DifferentiableAt ℝ (fun y => D2GDR0S2 (y (.inl iT)) (y (.inl iP)) (raw y 9) (raw y 10)) y
    have d9 := raw_diff 9 y
    have q9 := hp.2.2.2.2.2.2.2.2.2.1
    have n9 := q9.ne'
    have d10 := raw_diff 10 y
    have q10 := hp.2.2.2.2.2.2.2.2.2.2
    have n10 := q10.ne'
    try simp only [D2GDR0S2, zero_mul, mul_zero, add_zero, zero_add, sub_zero]
    have kGR1S3 := kd_GR1S3 y
    ddq
  · have hp := pos y hy
    have h := c_D2GDR0S2 (hl y u ((.inl iT))) (hl y u ((.inl iP))) (hl y u ((.inl (.inl 0)))) (hl y u ((.inl (.inl
        1)))) (hl y u ((.inl (.inl 2)))) (hl y u ((.inl (.inl 3)))) (hl y u ((.inl (.inl 4)))) (hl
        y u ((.inr 0))) (hl y u ((.inr 1))) (hl y u ((.inr 2))) (hl y u ((.inr 3))) (raw_line9 y
        u) (by simpa only [zero_mul, add_zero] using hp.2.2.2.2.2.2.2.2.2.1) (raw_line10 y u) (by
        simpa only [zero_mul, add_zero] using hp.2.2.2.2.2.2.2.2.2.2)
    try simp only [zero_mul, add_zero] at h
    refine h.congr_deriv ?_
    rw [sum_var]; simp only [Fin.sum_univ_five, Fin.sum_univ_four]; rfl

lemma gr_d2gdrds_0_3 (y : Var 5 4 → ℝ) (hy : Dom y) :
    Gr (fun y => (tables (raw y) y).d2gdrds 0 3) y ((tables (raw y) y).at3 (.inl (.inl 0)) (.inr 3)) := by
  refine Gr.of_lines ?_ fun u => ?_
  · have hp := pos y hy
    change DifferentiableAt ℝ (fun y => D2GDR0S3 (y (.inl iT)) (y (.inl iP)) (raw y 9) (raw y 10)) y
    have d9 := raw_diff 9 y
    have q9 := hp.2.2.2.2.2.2.2.2.2.1
    have n9 := q9.ne'
    have d10 := raw_diff 10 y
    have q10 := hp.2.2.2.2.2.2.2.2.2.2
    have n10 := q10.ne'
    try simp only [D2GDR0S3, zero_mul, mul_zero, add_zero, zero_add, sub_zero]
    have kGR1S4 := kd_GR1S4 y
    ddq
  · have hp := pos y hy
    have h := c_D2GDR0S3 (hl y u ((.inl iT))) (hl y u ((.inl iP))) (hl y u ((.inl (.inl 0)))) (hl y u ((.inl (.inl
        1)))) (hl y u ((.inl (.inl 2)))) (hl y u ((.inl (.inl 3)))) (hl y u ((.inl (.inl 4)))) (hl
        y u ((.inr 0))) (hl y u ((.inr 1))) (hl y u ((.inr 2))) (hl y u ((.inr 3))) (raw_line9 y
        u) (by simpa only [zero_mul, add_zero] using hp.2.2.2.2.2.2.2.2.2.1) (raw_line10 y u) (by
        simpa only [zero_mul, add_zero] using hp.2.2.2.2.2.2.2.2.2.2)
    try simp only [zero_mul, add_zero] at h
    refine h.congr_deriv ?_
    rw [sum_var]; simp only [Fin.sum_univ_five, Fin.sum_univ_four]; rfl

lemma gr_d2gdrdt_0 (y : Var 5 4 → ℝ) (hy : Dom y) :
    Gr (fun y => (tables (raw y) y).d2gdrdt 0) y ((tables (raw y) y).at3 (.inl (.inl 0)) (.inl iT)) := by
  refine Gr.of_lines ?_ fun u => ?_
  · have hp := pos y hy
    change DifferentiableAt ℝ (fun y => D2GDR0DT (raw y 0) (raw y 1) (raw y 9) (raw y 10)) y
    have d0 := raw_diff 0 y
    have q0 := hp.1
    have n0 := q0.ne'
    have d1 := raw_diff 1 y
    have q1 := hp.2.1
    have n1 := q1.ne'
    have d9 := raw_diff 9 y
    have q9 := hp.2.2.2.2.2.2.2.2.2.1
    have n9 := q9.ne'
    have d10 := raw_diff 10 y
    have q10 := hp.2.2.2.2.2.2.2.2.2.2
    have n10 := q10.ne'
    try simp only [D2GDR0DT, zero_mul, mul_zero, add_zero, zero_add, sub_zero]
    ddq
  · have hp := pos y hy
    have h := c_D2GDR0DT (hl y u ((.inl iT))) (hl y u ((.inl iP))) (hl y u ((.inl (.inl 0)))) (hl y u ((.inl (.inl
        1)))) (hl y u ((.inl (.inl 2)))) (hl y u ((.inl (.inl 3)))) (hl y u ((.inl (.inl 4)))) (hl
        y u ((.inr 0))) (hl y u ((.inr 1))) (hl y u ((.inr 2))) (hl y u ((.inr 3))) (raw_line0 y
        u) (by simpa only [zero_mul, add_zero] using hp.1) (raw_line1 y u) (by simpa only
        [zero_mul, add_zero] using hp.2.1) (raw_line9 y u) (by simpa only [zero_mul, add_zero]
        using hp.2.2.2.2.2.2.2.2.2.1) (raw_line10 y u) (by simpa only [zero_mul, add_zero] using
        hp.2.2.2.2.2.2.2.2.2.2)
    try simp only [zero_mul, add_zero] at h
    refine h.congr_deriv ?_
    rw [sum_var]; simp only [Fin.sum_univ_five, Fin.sum_univ_four]; rfl

lemma gr_d2gdrdp_0 (y : Var 5 4 → ℝ) (hy : Dom y) :
    Gr (fun y => (tables (raw y) y).d2gdrdp 0) y ((tables (raw y) y).at3 (.inl (.inl 0)) (.inl iP)) := by
  refine Gr.of_lines ?_ fun u => ?_
  · have hp := pos y hy
    change DifferentiableAt ℝ (fun y => D2GDR0DP (y (.inl (.inl 0))) (y (.inl (.inl 1))) (y (.inl (.inl 2))) (y (.inl (.inl 3))) (y (.inl (.inl 4))) (y (.inr 0)) (y (.inr 1)) (y (.inr 2)) (y (.inr 3))) y
    try simp only [D2GDR0DP, zero_mul, mul_zero, add_zero, zero_add, sub_zero]
    ddq
  · have hp := pos y hy
    have h := c_D2GDR0DP (hl y u ((.inl iT))) (hl y u ((.inl iP))) (hl y u ((.inl (.inl 0)))) (hl y u ((.inl (.inl
        1)))) (hl y u ((.inl (.inl 2)))) (hl y u ((.inl (.inl 3)))) (hl y u ((.inl (.inl 4)))) (hl
        y u ((.inr 0))) (hl y u ((.inr 1))) (hl y u ((.inr 2))) (hl y u ((.inr 3)))
    try simp only [zero_mul, add_zero] at h
    refine h.congr_deriv ?_
    rw [sum_var]; simp only [Fin.sum_univ_five, Fin.sum_univ_four]; rfl

lemma gr_d2gdr2_1_1 (y : Var 5 4 → ℝ) (hy : Dom y) :
    Gr (fun y => (tables (raw y) y).d2gdr2 1 1) y ((tables (raw y) y).at3 (.inl (.inl 1)) (.inl (.inl 1))) := by
  refine Gr.of_lines ?_ fun u => ?_
  · have hp := pos y hy
    change DifferentiableAt ℝ (fun y => D2GDR1R1 (y (.inl iT)) (y (.inl iP)) (raw y 2) (raw y 3) (raw y 9) (raw y 10)) y
    have d2 := raw_diff 2 y
    have q2 := hp.2.2.1
    have n2 := q2.ne'
    have d3 := raw_diff 3 y
    have q3 := hp.2.2.2.1
    have n3 := q3.ne'
    have d9 := raw_diff 9 y
    have q9 := hp.2.2.2.2.2.2.2.2.2.1
    have n9 := q9.ne'
    have d10 := raw_diff 10 y
    have q10 := hp.2.2.2.2.2.2.2.2.2.2
    have n10 := q10.ne'
    try simp only [D2GDR1R1, zero_mul, mul_zero, add_zero, zero_add, sub_zero]
    have kGR2R2 := kd_GR2R2 y
    ddq
  · have hp := pos y hy
    have h := c_D2GDR1R1 (hl y u ((.inl iT))) (hl y u ((.inl iP))) (hl y u ((.inl (.inl 0)))) (hl y u ((.inl (.inl
        1)))) (hl y u ((.inl (.inl 2)))) (hl y u ((.inl (.inl 3)))) (hl y u ((.inl (.inl 4)))) (hl
        y u ((.inr 0))) (hl y u ((.inr 1))) (hl y u ((.inr 2))) (hl y u ((.inr 3))) (raw_line2 y
        u) (by simpa only [zero_mul, add_zero] using hp.2.2.1) (raw_line3 y u) (by simpa only
        [zero_mul, add_zero] using hp.2.2.2.1) (raw_line9 y u) (by simpa only [zero_mul, add_zero]
        using hp.2.2.2.2.2.2.2.2.2.1) (raw_line10 y u) (by simpa only [zero_mul, add_zero] using
        hp.2.2.2.2.2.2.2.2.2.2)
    try simp only [zero_mul, add_zero] at h
    refine h.congr_deriv ?_
    rw [sum_var]; simp only [Fin.sum_univ_five, Fin.sum_univ_four]; rfl

lemma gr_d2gdr2_1_2 (y : Var 5 4 → ℝ) (hy : Dom y) :
    Gr (fun y => (tables (raw y) y).d2gdr2 1 2) y ((tables (raw y) y).at3 (.inl (.inl 1)) (.inl (.inl 2))) := by
  refine Gr.of_lines ?_ fun u => ?_
  · have hp := pos y hy
    change DifferentiableAt ℝ (fun y => D2GDR1R2 (y (.inl iT)) (y (.inl iP)) (raw y 9) (raw y 10)) y
    have d9 := raw_diff 9 y
    have q9 := hp.2.2.2.2.2.2.2.2.2.1
    have n9 := q9.ne'
    have d10 := raw_diff 10 y
    have q10 := hp.2.2.2.2.2.2.2.2.2.2
    have n10 := q10.ne'
    try simp only [D2GDR1R2, zero_mul, mul_zero, add_zero, zero_add, sub_zero]
    have kGR2R3 := kd_GR2R3 y
    ddq
  · have hp := pos y hy
    have h := c_D2GDR1R2 (hl y u ((.inl iT))) (hl y u ((.inl iP))) (hl y u ((.inl (.inl 0)))) (hl y u ((.inl (.inl
        1)))) (hl y u ((.inl (.inl 2)))) (hl y u ((.inl (.inl 3)))) (hl y u ((.inl (.inl 4)))) (hl
        y u ((.inr 0))) (hl y u ((.inr 1))) (hl y u ((.inr 2))) (hl y u ((.inr 3))) (raw_line9 y
        u) (by simpa only [zero_mul, add_zero] using hp.2.2.2.2.2.2.2.2.2.1) (raw_line10 y u) (by
        simpa only [zero_mul, add_zero] using hp.2.2.2.2.2.2.2.2.2.2)
    try simp only [zero_mul, add_zero] at h
    refine h.congr_deriv ?_
    rw [sum_var]; simp only [Fin.sum_univ_five, Fin.sum_univ_four]; rfl

lemma gr_d2gdr2_1_3 (y : Var 5 4 → ℝ) (hy : Dom y) :
    Gr (fun y => (tables (raw y) y).d2gdr2 1 3) y ((tables (raw y) y).at3 (.inl (.inl 1)) (.inl (.inl 3))) := by
  refine Gr.of_lines ?_ fun u => ?_
  · have hp := pos y hy
    change DifferentiableAt ℝ (fun y => D2GDR1R3 (y (.inl iT)) (y (.inl iP)) (raw y 9) (raw y 10)) y
    have d9 := raw_diff 9 y
    have q9 := hp.2.2.2.2.2.2.2.2.2.1
    have n9 := q9.ne'
    have d10 := raw_diff 10 y
    have q10 := hp.2.2.2.2.2.2.2.2.2.2
    have n10 := q10.ne'
    try simp only [D2GDR1R3, zero_mul, mul_zero, add_zero, zero_add, sub_zero]
    have kGR2R4 := kd_GR2R4 y
    ddq
  · have hp := pos y hy
    have h := c_D2GDR1R3 (hl y u ((.inl iT))) (hl y u ((.inl iP))) (hl y u ((.inl (.inl 0)))) (hl y u ((.inl (.inl
        1)))) (hl y u ((.inl (.inl 2)))) (hl y u ((.inl (.inl 3)))) (hl y u ((.inl (.inl 4)))) (hl
        y u ((.inr 0))) (hl y u ((.inr 1))) (hl y u ((.inr 2))) (hl y u ((.inr 3))) (raw_line9 y
        u) (by simpa only [zero_mul, add_zero] using hp.2.2.2.2.2.2.2.2.2.1) (raw_line10 y u) (by
        simpa only [zero_mul, add_zero] using hp.2.2.2.2.2.2.2.2.2.2)
    try simp only [zero_mul, add_zero] at h
    refine h.congr_deriv ?_
    rw [sum_var]; simp only [Fin.sum_univ_five, Fin.sum_univ_four]; rfl

lemma gr_d2gdr2_1_4 (y : Var 5 4 → ℝ) (hy : Dom y) :
    Gr (fun y => (tables (raw y) y).d2gdr2 1 4) y ((tables (raw y) y).at3 (.inl (.inl 1)) (.inl (.inl 4))) := by
  refine Gr.of_lines ?_ fun u => ?_
  · have hp := pos y hy
    change DifferentiableAt ℝ (fun y => D2GDR1R4 (y (.inl iT)) (y (.inl iP)) (raw y 10)) y
    have d10 := raw_diff 10 y
    have q10 := hp.2.2.2.2.2.2.2.2.2.2
    have n10 := q10.ne'
    try simp only [D2GDR1R4, zero_mul, mul_zero, add_zero, zero_add, sub_zero]
    have kGR2R5 := kd_GR2R5 y
    ddq
  · have hp := pos y hy
    have h := c_D2GDR1R4 (hl y u ((.inl iT))) (hl y u ((.inl iP))) (hl y u ((.inl (.inl 0)))) (hl y u ((.inl (.inl
        1)))) (hl y u ((.inl (.inl 2)))) (hl y u ((.inl (.inl 3)))) (hl y u ((.inl (.inl 4)))) (hl
        y u ((.inr 0))) (hl y u ((.inr 1))) (hl y u ((.inr 2))) (hl y u ((.inr 3))) (raw_line10 y
        u) (by simpa only [zero_mul, add_zero] using hp.2.2.2.2.2.2.2.2.2.2)
    try simp only [zero_mul, add_zero] at h
    refine h.congr_deriv ?_
    rw [sum_var]; simp only [Fin.sum_univ_five, Fin.sum_univ_four]; rfl

lemma gr_d2gdrds_1_0 (y : Var 5 4 → ℝ) (hy : Dom y) :
    Gr (fun y => (tables (raw y) y).d2gdrds 1 0) y ((tables (raw y) y).at3 (.inl (.inl 1)) (.inr 0)) := by
  refine Gr.of_lines ?_ fun u => ?_
  · have hp := pos y hy
    change DifferentiableAt ℝ (fun y => D2GDR1S0 (y (.inl iT)) (y (.inl iP)) (raw y 9) (raw y 10)) y
    have d9 := raw_diff 9 y
    have q9 := hp.2.2.2.2.2.2.2.2.2.1
    have n9 := q9.ne'
    have d10 := raw_diff 10 y
    have q10 := hp.2.2.2.2.2.2.2.2.2.2
    have n10 := q10.ne'
    try simp only [D2GDR1S0, zero_mul, mul_zero, add_zero, zero_add, sub_zero]
    have kGR2S1 := kd_GR2S1 y
    ddq
  · have hp := pos y hy
    have h := c_D2GDR1S0 (hl y u ((.inl iT))) (hl y u ((.inl iP))) (hl y u ((.inl (.inl 0)))) (hl y u ((.inl (.inl
        1)))) (hl y u ((.inl (.inl 2)))) (hl y u ((.inl (.inl 3)))) (hl y u ((.inl (.inl 4)))) (hl
        y u ((.inr 0))) (hl y u ((.inr 1))) (hl y u ((.inr 2))) (hl y u ((.inr 3))) (raw_line9 y
        u) (by simpa only [zero_mul, add_zero] using hp.2.2.2.2.2.2.2.2.2.1) (raw_line10 y u) (by
        simpa only [zero_mul, add_zero] using hp.2.2.2.2.2.2.2.2.2.2)
    try simp only [zero_mul, add_zero] at h
    refine h.congr_deriv ?_
    rw [sum_var]; simp only [Fin.sum_univ_five, Fin.sum_univ_four]; rfl

lemma gr_d2gdrds_1_1 (y : Var 5 4 → ℝ) (hy : Dom y) :
    Gr (fun y => (tables (raw y) y).d2gdrds 1 1) y ((tables (raw y) y).at3 (.inl (.inl 1)) (.inr 1)) := by
  refine Gr.of_lines ?_ fun u => ?_
  · have hp := pos y hy
    change DifferentiableAt ℝ (fun y => D2GDR1S1 (y (.inl iT)) (y (.inl iP)) (raw y 2) (raw y 3) (raw y 9) (raw y 10)) y
    have d2 := raw_diff 2 y
    have q2 := hp.2.2.1
    have n2 := q2.ne'
    have d3 := raw_diff 3 y
    have q3 := hp.2.2.2.1
    have n3 := q3.ne'
    have d9 := raw_diff 9 y
    have q9 := hp.2.2.2.2.2.2.2.2.2.1
    have n9 := q9.ne'
    have d10 := raw_diff 10 y
    have q10 := hp.2.2.2.2.2.2.2.2.2.2
    have n10 := q10.ne'
    try simp only [D2GDR1S1, zero_mul, mul_zero, add_zero, zero_add, sub_zero]
    have kGR2S2 := kd_GR2S2 y
    ddq
  · have hp := pos y hy
    have h := c_D2GDR1S1 (hl y u ((.inl iT))) (hl y u ((.inl iP))) (hl y u ((.inl (.inl 0)))) (hl y u ((.inl (.inl
        1)))) (hl y u ((.inl (.inl 2)))) (hl y u ((.inl (.inl 3)))) (hl y u ((.inl (.inl 4)))) (hl
        y u ((.inr 0))) (hl y u ((.inr 1))) (hl y u ((.inr 2))) (hl y u ((.inr 3))) (raw_line2 y
        u) (by simpa only [zero_mul, add_zero] using hp.2.2.1) (raw_line3 y u) (by simpa only
        [zero_mul, add_zero] using hp.2.2.2.1) (raw_line9 y u) (by simpa only [zero_mul, add_zero]
        using hp.2.2.2.2.2.2.2.2.2.1) (raw_line10 y u) (by simpa only [zero_mul, add_zero] using
        hp.2.2.2.2.2.2.2.2.2.2)
    try simp only [zero_mul, add_zero] at h
    refine h.congr_deriv ?_
    rw [sum_var]; simp only [Fin.sum_univ_five, Fin.sum_univ_four]; rfl

lemma gr_d2gdrds_1_2 (y : Var 5 4 → ℝ) (hy : Dom y) :
    Gr (fun y => (tables (raw y) y).d2gdrds 1 2) y ((tables (raw y) y).at3 (.inl (.inl 1)) (.inr 2)) := by
  refine Gr.of_lines ?_ fun u => ?_
  · have hp := pos y hy
    change DifferentiableAt ℝ (fun y => D2GDR1S2 (y (.inl iT)) (y (.inl iP)) (raw y 9) (raw y 10)) y
    have d9 := raw_diff 9 y
    have q9 := hp.2.2.2.2.2.2.2.2.2.1
    have n9 := q9.ne'
    have d10 := raw_diff 10 y
    have q10 := hp.2.2.2.2.2.2.2.2.2.2
    have n10 := q10.ne'
    try simp only [D2GDR1S2, zero_mul, mul_zero, add_zero, zero_add, sub_zero]
    have kGR2S3 := kd_GR2S3 y
    ddq
  · have hp := pos y hy
    have h := c_D2GDR1S2 (hl y u ((.inl iT))) (hl y u ((.inl iP))) (hl y u ((.inl (.inl 0)))) (hl y u ((.inl (.inl
        1)))) (hl y u ((.inl (.inl 2)))) (hl y u ((.inl (.inl 3)))) (hl y u ((.inl (.inl 4)))) (hl
        y u ((.inr 0))) (hl y u ((.inr 1))) (hl y u ((.inr 2))) (hl y u ((.inr 3))) (raw_line9 y
        u) (by simpa only [zero_mul, add_zero] using hp.2.2.2.2.2.2.2.2.2.1) (raw_line10 y u) (by
        simpa only [zero_mul, add_zero] using hp.2.2.2.2.2.2.2.2.2.2)
    try simp only [zero_mul, add_zero] at h
    refine h.congr_deriv ?_
    rw [sum_var]; simp only [Fin.sum_univ_five, Fin.sum_univ_four]; rfl

lemma gr_d2gdrds_1_3 (y : Var 5 4 → ℝ) (hy : Dom y) :
    Gr (fun y => (tables (raw y) y).d2gdrds 1 3) y ((tables (raw y) y).at3 (.inl (.inl 1)) (.inr 3)) := by
  refine Gr.of_lines ?_ fun u => ?_
  · have hp := pos y hy
    change DifferentiableAt ℝ (fun y => D2GDR1S3 (y (.inl iT)) (y (.inl iP)) (raw y 9) (raw y 10)) y
    have d9 := raw_diff 9 y
    have q9 := hp.2.2.2.2.2.2.2.2.2.1
    have n9 := q9.ne'
    have d10 := raw_diff 10 y
    have q10 := hp.2.2.2.2.2.2.2.2.2.2
    have n10 := q10.ne'
    try simp only [D2GDR1S3, zero_mul, mul_zero, add_zero, zero_add, sub_zero]
    have kGR2S4 := kd_GR2S4 y
    ddq
  · have hp := pos y hy
    have h := c_D2GDR1S3 (hl y u ((.inl iT))) (hl y u ((.inl iP))) (hl y u ((.inl (.inl 0)))) (hl y u ((.inl (.inl
        1)))) (hl y u ((.inl (.inl 2)))) (hl y u ((.inl (.inl 3)))) (hl y u ((.inl (.inl 4)))) (hl
        y u ((.inr 0))) (hl y u ((.inr 1))) (hl y u ((.inr 2))) (hl y u ((.inr 3))) (raw_line9 y
        u) (by simpa only [zero_mul, add_zero] using hp.2.2.2.2.2.2.2.2.2.1) (raw_line10 y u) (by
        simpa only [zero_mul, add_zero] using hp.2.2.2.2.2.2.2.2.2.2)
    try simp only [zero_mul, add_zero] at h
    refine h.congr_deriv ?_
    rw [sum_var]; simp only [Fin.sum_univ_five, Fin.sum_univ_four]; rfl

lemma gr_d2gdrdt_1 (y : Var 5 4 → ℝ) (hy : Dom y) :
    Gr (fun y => (tables (raw y) y).d2gdrdt 1) y ((tables (raw y) y).at3 (.inl (.inl 1)) (.inl iT)) := by
  refine Gr.of_lines ?_ fun u => ?_
  · have hp := pos y hy
    change DifferentiableAt ℝ (fun y => D2GDR1DT (raw y 2) (raw y 3) (raw y 9) (raw y 10)) y
    have d2 := raw_diff 2 y
    have q2 := hp.2.2.1
    have n2 := q2.ne'
    have d3 := raw_diff 3 y
    have q3 := hp.2.2.2.1
    have n3 := q3.ne'
    have d9 := raw_diff 9 y
    have q9 := hp.2.2.2.2.2.2.2.2.2.1
    have n9 := q9.ne'
    have d10 := raw_diff 10 y
    have q10 := hp.2.2.2.2.2.2.2.2.2.2
    have n10 := q10.ne'
    try simp only [D2GDR1DT, zero_mul, mul_zero, add_zero, zero_add, sub_zero]
    ddq
  · have hp := pos y hy
    have h := c_D2GDR1DT (hl y u ((.inl iT))) (hl y u ((.inl iP))) (hl y u ((.inl (.inl 0)))) (hl y u ((.inl (.inl
        1)))) (hl y u ((.inl (.inl 2)))) (hl y u ((.inl (.inl 3)))) (hl y u ((.inl (.inl 4)))) (hl
        y u ((.inr 0))) (hl y u ((.inr 1))) (hl y u ((.inr 2))) (hl y u ((.inr 3))) (raw_line2 y
        u) (by simpa only [zero_mul, add_zero] using hp.2.2.1) (raw_line3 y u) (by simpa only
        [zero_mul, add_zero] using hp.2.2.2.1) (raw_line9 y u) (by simpa only [zero_mul, add_zero]
        using hp.2.2.2.2.2.2.2.2.2.1) (raw_line10 y u) (by simpa only [zero_mul, add_zero] using
        hp.2.2.2.2.2.2.2.2.2.2)
    try simp only [zero_mul, add_zero] at h
    refine h.congr_deriv ?_
    rw [sum_var]; simp only [Fin.sum_univ_five, Fin.sum_univ_four]; rfl

lemma gr_d2gdrdp_1 (y : Var 5 4 → ℝ) (hy : Dom y) :
    Gr (fun y => (tables (raw y) y).d2gdrdp 1) y ((tables (raw y) y).at3 (.inl (.inl 1)) (.inl iP)) := by
  refine Gr.of_lines ?_ fun u => ?_
  · have hp := pos y hy
    change DifferentiableAt ℝ (fun y => D2GDR1DP (y (.inl (.inl 0))) (y (.inl (.inl 1))) (y (.inl (.inl 2))) (y (.inl (.inl 3))) (y (.inl (.inl 4))) (y (.inr 0)) (y (.inr 1)) (y (.inr 2)) (y (.inr 3))) y
    try simp only [D2GDR1DP, zero_mul, mul_zero, add_zero, zero_add, sub_zero]
    ddq
  · have hp := pos y hy
    have h := c_D2GDR1DP (hl y u ((.inl iT))) (hl y u ((.inl iP))) (hl y u ((.inl (.inl 0)))) (hl y u ((.inl (.inl
        1)))) (hl y u ((.inl (.inl 2)))) (hl y u ((.inl (.inl 3)))) (hl y u ((.inl (.inl 4)))) (hl
        y u ((.inr 0))) (hl y u ((.inr 1))) (hl y u ((.inr 2))) (hl y u ((.inr 3)))
    try simp only [zero_mul, add_zero] at h
    refine h.congr_deriv ?_
    rw [sum_var]; simp only [Fin.sum_univ_five, Fin.sum_univ_four]; rfl

lemma gr_d2gdr2_2_2 (y : Var 5 4 → ℝ) (hy : Dom y) :
    Gr (fun y => (tables (raw y) y).d2gdr2 2 2) y ((tables (raw y) y).at3 (.inl (.inl 2)) (.inl (.inl 2))) := by
  refine Gr.of_lines ?_ fun u => ?_
  · have hp := pos y hy
    change DifferentiableAt ℝ (fun y => D2GDR2R2 (y (.inl iT)) (y (.inl iP)) (raw y 4) (raw y 5) (raw y 9) (raw y 10)) y
    have d4 := raw_diff 4 y
    have q4 := hp.2.2.2.2.1
    have n4 := q4.ne'
    have d5 := raw_diff 5 y
    have q5 := hp.2.2.2.2.2.1
    have n5 := q5.ne'
    have d9 := raw_diff 9 y
    have q9 := hp.2.2.2.2.2.2.2.2.2.1
    have n9 := q9.ne'
    have d10 := raw_diff 10 y
    have q10 := hp.2.2.2.2.2.2.2.2.2.2
    have n10 := q10.ne'
    try simp only [D2GDR2R2, zero_mul, mul_zero, add_zero, zero_add, sub_zero]
    have kGR3R3 := kd_GR3R3 y
    ddq
  · have hp := pos y hy
    have h := c_D2GDR2R2 (hl y u ((.inl iT))) (hl y u ((.inl iP))) (hl y u ((.inl (.inl 0)))) (hl y u ((.inl (.inl
        1)))) (hl y u ((.inl (.inl 2)))) (hl y u ((.inl (.inl 3)))) (hl y u ((.inl (.inl 4)))) (hl
        y u ((.inr 0))) (hl y u ((.inr 1))) (hl y u ((.inr 2))) (hl y u ((.inr 3))) (raw_line4 y
        u) (by simpa only [zero_mul, add_zero] using hp.2.2.2.2.1) (raw_line5 y u) (by simpa only
        [zero_mul, add_zero] using hp.2.2.2.2.2.1) (raw_line9 y u) (by simpa only [zero_mul,
        add_zero] using hp.2.2.2.2.2.2.2.2.2.1) (raw_line10 y u) (by simpa only [zero_mul,
        add_zero] using hp.2.2.2.2.2.2.2.2.2.2)
    try simp only [zero_mul, add_zero] at h
    refine h.congr_deriv ?_
    rw [sum_var]; simp only [Fin.sum_univ_five, Fin.sum_univ_four]; rfl

lemma gr_d2gdr2_2_3 (y : Var 5 4 → ℝ) (hy : Dom y) :
    Gr (fun y => (tables (raw y) y).d2gdr2 2 3) y ((tables (raw y) y).at3 (.inl (.inl 2)) (.inl (.inl 3))) := by
  refine Gr.of_lines ?_ fun u => ?_
  · have hp := pos y hy
    change DifferentiableAt ℝ (fun y => D2GDR2R3 (y (.inl iT)) (y (.inl iP)) (raw y 9) (raw y 10)) y
    have d9 := raw_diff 9 y
    have q9 := hp.2.2.2.2.2.2.2.2.2.1
    have n9 := q9.ne'
    have d10 := raw_diff 10 y
    have q10 := hp.2.2.2.2.2.2.2.2.2.2
    have n10 := q10.ne'
    try simp only [D2GDR2R3, zero_mul, mul_zero, add_zero, zero_add, sub_zero]
    have kGR3R4 := kd_GR3R4 y
    ddq
  · have hp := pos y hy
    have h := c_D2GDR2R3 (hl y u ((.inl iT))) (hl y u ((.inl iP))) (hl y u ((.inl (.inl 0)))) (hl y u ((.inl (.inl
        1)))) (hl y u ((.inl (.inl 2)))) (hl y u ((.inl (.inl 3)))) (hl y u ((.inl (.inl 4)))) (hl
        y u ((.inr 0))) (hl y u ((.inr 1))) (hl y u ((.inr 2))) (hl y u ((.inr 3))) (raw_line9 y
        u) (by simpa only [zero_mul, add_zero] using hp.2.2.2.2.2.2.2.2.2.1) (raw_line10 y u) (by
        simpa only [zero_mul, add_zero] using hp.2.2.2.2.2.2.2.2.2.2)
    try simp only [zero_mul, add_zero] at h
    refine h.congr_deriv ?_
    rw [sum_var]; simp only [Fin.sum_univ_five, Fin.sum_univ_four]; rfl

lemma gr_d2gdr2_2_4 (y : Var 5 4 → ℝ) (hy : Dom y) :
    Gr (fun y => (tables (raw y) y).d2gdr2 2 4) y ((tables (raw y) y).at3 (.inl (.inl 2)) (.inl (.inl 4))) := by
  refine Gr.of_lines ?_ fun u => ?_
  · have hp := pos y hy
    change DifferentiableAt ℝ (fun y => D2GDR2R4 (y (.inl iT)) (y (.inl iP)) (raw y 10)) y
    have d10 := raw_diff 10 y
    have q10 := hp.2.2.2.2.2.2.2.2.2.2
    have n10 := q10.ne'
    try simp only [D2GDR2R4, zero_mul, mul_zero, add_zero, zero_add, sub_zero]
    have kGR3R5 := kd_GR3R5 y
    ddq
  · have hp := pos y hy
    have h := c_D2GDR2R4 (hl y u ((.inl iT))) (hl y u ((.inl iP))) (hl y u ((.inl (.inl 0)))) (hl y u ((.inl (.inl
        1)))) (hl y u ((.inl (.inl 2)))) (hl y u ((.inl (.inl 3)))) (hl y u ((.inl (.inl 4)))) (hl
        y u ((.inr 0))) (hl y u ((.inr 1))) (hl y u ((.inr 2))) (hl y u ((.inr 3))) (raw_line10 y
        u) (by simpa only [zero_mul, add_zero] using hp.2.2.2.2.2.2.2.2.2.2)
    try simp only [zero_mul, add_zero] at h
    refine h.congr_deriv ?_
    rw [sum_var]; simp only [Fin.sum_univ_five, Fin.sum_univ_four]; rfl

lemma gr_d2gdrds_2_0 (y : Var 5 4 → ℝ) (hy : Dom y) :
    Gr (fun y => (tables (raw y) y).d2gdrds 2 0) y ((tables (raw y) y).at3 (.inl (.inl 2)) (.inr 0)) := by
  refine Gr.of_lines ?_ fun u => ?_
  · have hp := pos y hy
    change DifferentiableAt ℝ (fun y => D2GDR2S0 (y (.inl iT)) (y (.inl iP)) (raw y 9) (raw y 10)) y
    have d9 := raw_diff 9 y
    have q9 := hp.2.2.2.2.2.2.2.2.2.1
    have n9 := q9.ne'
    have d10 := raw_diff 10 y
    have q10 := hp.2.2.2.2.2.2.2.2.2.2
    have n10 := q10.ne'
    try simp only [D2GDR2S0, zero_mul, mul_zero, add_zero, zero_add, sub_zero]
    have kGR3S1 := kd_GR3S1 y
    ddq
  · have hp := pos y hy
    have h := c_D2GDR2S0 (hl y u ((.inl iT))) (hl y u ((.inl iP))) (hl y u ((.inl (.inl 0)))) (hl y u ((.inl (.inl
        1)))) (hl y u ((.inl (.inl 2)))) (hl y u ((.inl (.inl 3)))) (hl y u ((.inl (.inl 4)))) (hl
        y u ((.inr 0))) (hl y u ((.inr 1))) (hl y u ((.inr 2))) (hl y u ((.inr 3))) (raw_line9 y
        u) (by simpa only [zero_mul, add_zero] using hp.2.2.2.2.2.2.2.2.2.1) (raw_line10 y u) (by
        simpa only [zero_mul, add_zero] using hp.2.2.2.2.2.2.2.2.2.2)
    try simp only [zero_mul, add_zero] at h
    refine h.congr_deriv ?_
    rw [sum_var]; simp only [Fin.sum_univ_five, Fin.sum_univ_four]; rfl

lemma gr_d2gdrds_2_1 (y : Var 5 4 → ℝ) (hy : Dom y) :
    Gr (fun y => (tables (raw y) y).d2gdrds 2 1) y ((tables (raw y) y).at3 (.inl (.inl 2)) (.inr 1)) := by
  refine Gr.of_lines ?_ fun u => ?_
  · have hp := pos y hy
    change DifferentiableAt ℝ (fun y => D2GDR2S1 (y (.inl iT)) (y (.inl iP)) (raw y 9) (raw y 10)) y
    have d9 := raw_diff 9 y
    have q9 := hp.2.2.2.2.2.2.2.2.2.1
    have n9 := q9.ne'
    have d10 := raw_diff 10 y
    have q10 := hp.2.2.2.2.2.2.2.2.2.2
    have n10 := q10.ne'
    try simp only [D2GDR2S1, zero_mul, mul_zero, add_zero, zero_add, sub_zero]
    have kGR3S2 := kd_GR3S2 y
    ddq
  · have hp := pos y hy
    have h := c_D2GDR2S1 (hl y u ((.inl iT))) (hl y u ((.inl iP))) (hl y u ((.inl (.inl 0)))) (hl y u ((.inl (.inl
        1)))) (hl y u ((.inl (.inl 2)))) (hl y u ((.inl (.inl 3)))) (hl y u ((.inl (.inl 4)))) (hl
        y u ((.inr 0))) (hl y u ((.inr 1))) (hl y u ((.inr 2))) (hl y u ((.inr 3))) (raw_line9 y
        u) (by simpa only [zero_mul, add_zero] using hp.2.2.2.2.2.2.2.2.2.1) (raw_line10 y u) (by
        simpa only [zero_mul, add_zero] using hp.2.2.2.2.2.2.2.2.2.2)
    try simp only [zero_mul, add_zero] at h
    refine h.congr_deriv ?_
    rw [sum_var]; simp only [Fin.sum_univ_five, Fin.sum_univ_four]; rfl

lemma gr_d2gdrds_2_2 (y : Var 5 4 → ℝ) (hy : Dom y) :
    Gr (fun y => (tables (raw y) y).d2gdrds 2 2) y ((tables (raw y) y).at3 (.inl (.inl 2)) (.inr 2)) := by
  refine Gr.of_lines ?_ fun u => ?_
  · have hp := pos y hy
    change DifferentiableAt ℝ (fun y => D2GDR2S2 (y (.inl iT)) (y (.inl iP)) (raw y 4) (raw y 5) (raw y 9) (raw y 10)) y
    have d4 := raw_diff 4 y
    have q4 := hp.2.2.2.2.1
    have n4 := q4.ne'
    have d5 := raw_diff 5 y
    have q5 := hp.2.2.2.2.2.1
    have n5 := q5.ne'
    have d9 := raw_diff 9 y
    have q9 := hp.2.2.2.2.2.2.2.2.2.1
    have n9 := q9.ne'
    have d10 := raw_diff 10 y
    have q10 := hp.2.2.2.2.2.2.2.2.2.2
    have n10 := q10.ne'
    try simp only [D2GDR2S2, zero_mul, mul_zero, add_zero, zero_add, sub_zero]
    have kGR3S3 := kd_GR3S3 y
    ddq
  · have hp := pos y hy
    have h := c_D2GDR2S2 (hl y u ((.inl iT))) (hl y u ((.inl iP))) (hl y u ((.inl (.inl 0)))) (hl y u ((.inl (.inl
        1)))) (hl y u ((.inl (.inl 2)))) (hl y u ((.inl (.inl 3)))) (hl y u ((.inl (.inl 4)))) (hl
        y u ((.inr 0))) (hl y u ((.inr 1))) (hl y u ((.inr 2))) (hl y u ((.inr 3))) (raw_line4 y
        u) (by simpa only [zero_mul, add_zero] using hp.2.2.2.2.1) (raw_line5 y u) (by simpa only
        [zero_mul, add_zero] using hp.2.2.2.2.2.1) (raw_line9 y u) (by simpa only [zero_mul,
        add_zero] using hp.2.2.2.2.2.2.2.2.2.1) (raw_line10 y u) (by simpa only [zero_mul,
        add_zero] using hp.2.2.2.2.2.2.2.2.2.2)
    try simp only [zero_mul, add_zero] at h
    refine h.congr_deriv ?_
    rw [sum_var]; simp only [Fin.sum_univ_five, Fin.sum_univ_four]; rfl

lemma gr_d2gdrds_2_3 (y : Var 5 4 → ℝ) (hy : Dom y) :
    Gr (fun y => (tables (raw y) y).d2gdrds 2 3) y ((tables (raw y) y).at3 (.inl (.inl 2)) (.inr 3)) := by
  refine Gr.of_lines ?_ fun u => ?_
  · have hp := pos y hy
    change DifferentiableAt ℝ (fun y => D2GDR2S3 (y (.inl iT)) (y (.inl iP)) (raw y 9) (raw y 10)) y
    have d9 := raw_diff 9 y
    have q9 := hp.2.2.2.2.2.2.2.2.2.1
    have n9 := q9.ne'
    have d10 := raw_diff 10 y
    have q10 := hp.2.2.2.2.2.2.2.2.2.2
    have n10 := q10.ne'
    try simp only [D2GDR2S3, zero_mul, mul_zero, add_zero, zero_add, sub_zero]
    have kGR3S4 := kd_GR3S4 y
    ddq
  · have hp := pos y hy
    have h := c_D2GDR2S3 (hl y u ((.inl iT))) (hl y u ((.inl iP))) (hl y u ((.inl (.inl 0)))) (hl y u ((.inl (.inl
        1)))) (hl y u ((.inl (.inl 2)))) (hl y u ((.inl (.inl 3)))) (hl y u ((.inl (.inl 4)))) (hl
        y u ((.inr 0))) (hl y u ((.inr 1))) (hl y u ((.inr 2))) (hl y u ((.inr 3))) (raw_line9 y
        u) (by simpa only [zero_mul, add_zero] using hp.2.2.2.2.2.2.2.2.2.1) (raw_line10 y u) (by
        simpa only [zero_mul, add_zero] using hp.2.2.2.2.2.2.2.2.2.2)
    try simp only [zero_mul, add_zero] at h
    refine h.congr_deriv ?_
    rw [sum_var]; simp only [Fin.sum_univ_five, Fin.sum_univ_four]; rfl

lemma gr_d2gdrdt_2 (y : Var 5 4 → ℝ) (hy : Dom y) :
    Gr (fun y => (tables (raw y) y).d2gdrdt 2) y ((tables (raw y) y).at3 (.inl (.inl 2)) (.inl iT)) := by
  refine Gr.of_lines ?_ fun u => ?_
  · have hp := pos y hy
    change DifferentiableAt ℝ (fun y => D2GDR2DT (raw y 4) (raw y 5) (raw y 9) (raw y 10)) y
    have d4 := raw_diff 4 y
    have q4 := hp.2.2.2.2.1
    have n4 := q4.ne'
    have d5 := raw_diff 5 y
    have q5 := hp.2.2.2.2.2.1
    have n5 := q5.ne'
    have d9 := raw_diff 9 y
    have q9 := hp.2.2.2.2.2.2.2.2.2.1
    have n9 := q9.ne'
    have d10 := raw_diff 10 y
    have q10 := hp.2.2.2.2.2.2.2.2.2.2
    have n10 := q10.ne'
    try simp only [D2GDR2DT, zero_mul, mul_zero, add_zero, zero_add, sub_zero]
    ddq
  · have hp := pos y hy
    have h := c_D2GDR2DT (hl y u ((.inl iT))) (hl y u ((.inl iP))) (hl y u ((.inl (.inl 0)))) (hl y u ((.inl (.inl
        1)))) (hl y u ((.inl (.inl 2)))) (hl y u ((.inl (.inl 3)))) (hl y u ((.inl (.inl 4)))) (hl
        y u ((.inr 0))) (hl y u ((.inr 1))) (hl y u ((.inr 2))) (hl y u ((.inr 3))) (raw_line4 y
        u) (by simpa only [zero_mul, add_zero] using hp.2.2.2.2.1) (raw_line5 y u) (by simpa only
        [zero_mul, add_zero] using hp.2.2.2.2.2.1) (raw_line9 y u) (by simpa only [zero_mul,
        add_zero] using hp.2.2.2.2.2.2.2.2.2.1) (raw_line10 y u) (by simpa only [zero_mul,
        add_zero] using hp.2.2.2.2.2.2.2.2.2.2)
    try simp only [zero_mul, add_zero] at h
    refine h.congr_deriv ?_
    rw [sum_var]; simp only [Fin.sum_univ_five, Fin.sum_univ_four]; rfl

lemma gr_d2gdrdp_2 (y : Var 5 4 → ℝ) (hy : Dom y) :
    Gr (fun y => (tables (raw y) y).d2gdrdp 2) y ((tables (raw y) y).at3 (.inl (.inl 2)) (.inl iP)) := by
  refine Gr.of_lines ?_ fun u => ?_
  · have hp := pos y hy
    change DifferentiableAt ℝ (fun y => D2GDR2DP (y (.inl (.inl 0))) (y (.inl (.inl 1))) (y (.inl (.inl 2))) (y (.inl (.inl 3))) (y (.inl (.inl 4))) (y (.inr 0)) (y (.inr 1)) (y (.inr 2)) (y (.inr 3))) y
    try simp only [D2GDR2DP, zero_mul, mul_zero, add_zero, zero_add, sub_zero]
    ddq
  · have hp := pos y hy
    have h := c_D2GDR2DP (hl y u ((.inl iT))) (hl y u ((.inl iP))) (hl y u ((.inl (.inl 0)))) (hl y u ((.inl (.inl
        1)))) (hl y u ((.inl (.inl 2)))) (hl y u ((.inl (.inl 3)))) (hl y u ((.inl (.inl 4)))) (hl
        y u ((.inr 0))) (hl y u ((.inr 1))) (hl y u ((.inr 2))) (hl y u ((.inr 3)))
    try simp only [zero_mul, add_zero] at h
    refine h.congr_deriv ?_
    rw [sum_var]; simp only [Fin.sum_univ_five, Fin.sum_univ_four]; rfl

lemma gr_d2gdr2_3_3 (y : Var 5 4 → ℝ) (hy : Dom y) :
    Gr (fun y => (tables (raw y) y).d2gdr2 3 3) y ((tables (raw y) y).at3 (.inl (.inl 3)) (.inl (.inl 3))) := by
  refine Gr.of_lines ?_ fun u => ?_
  · have hp := pos y hy
    change DifferentiableAt ℝ (fun y => D2GDR3R3 (y (.inl iT)) (y (.inl iP)) (raw y 6) (raw y 7) (raw y 9) (raw y 10)) y
    have d6 := raw_diff 6 y
    have q6 := hp.2.2.2.2.2.2.1
    have n6 := q6.ne'
    have d7 := raw_diff 7 y
    have q7 := hp.2.2.2.2.2.2.2.1
    have n7 := q7.ne'
    have d9 := raw_diff 9 y
    have q9 := hp.2.2.2.2.2.2.2.2.2.1
    have n9 := q9.ne'
    have d10 := raw_diff 10 y
    have q10 := hp.2.2.2.2.2.2.2.2.2.2
    have n10 := q10.ne'
    try simp only [D2GDR3R3, zero_mul, mul_zero, add_zero, zero_add, sub_zero]
    have kGR4R4 := kd_GR4R4 y
    ddq
  · have hp := pos y hy
    have h := c_D2GDR3R3 (hl y u ((.inl iT))) (hl y u ((.inl iP))) (hl y u ((.inl (.inl 0)))) (hl y u ((.inl (.inl
        1)))) (hl y u ((.inl (.inl 2)))) (hl y u ((.inl (.inl 3)))) (hl y u ((.inl (.inl 4)))) (hl
        y u ((.inr 0))) (hl y u ((.inr 1))) (hl y u ((.inr 2))) (hl y u ((.inr 3))) (raw_line6 y
        u) (by simpa only [zero_mul, add_zero] using hp.2.2.2.2.2.2.1) (raw_line7 y u) (by simpa
        only [zero_mul, add_zero] using hp.2.2.2.2.2.2.2.1) (raw_line9 y u) (by simpa only
        [zero_mul, add_zero] using hp.2.2.2.2.2.2.2.2.2.1) (raw_line10 y u) (by simpa only
        [zero_mul, add_zero] using hp.2.2.2.2.2.2.2.2.2.2)
    try simp only [zero_mul, add_zero] at h
    refine h.congr_deriv ?_
    rw [sum_var]; simp only [Fin.sum_univ_five, Fin.sum_univ_four]; rfl

lemma gr_d2gdr2_3_4 (y : Var 5 4 → ℝ) (hy : Dom y) :
    Gr (fun y => (tables (raw y) y).d2gdr2 3 4) y ((tables (raw y) y).at3 (.inl (.inl 3)) (.inl (.inl 4))) := by
  refine Gr.of_lines ?_ fun u => ?_
  · have hp := pos y hy
    change DifferentiableAt ℝ (fun y => D2GDR3R4 (y (.inl iT)) (y (.inl iP)) (raw y 10)) y
    have d10 := raw_diff 10 y
    have q10 := hp.2.2.2.2.2.2.2.2.2.2
    have n10 := q10.ne'
    try simp only [D2GDR3R4, zero_mul, mul_zero, add_zero, zero_add, sub_zero]
    have kGR4R5 := kd_GR4R5 y
    ddq
  · have hp := pos y hy
    have h := c_D2GDR3R4 (hl y u ((.inl iT))) (hl y u ((.inl iP))) (hl y u ((.inl (.inl 0)))) (hl y u ((.inl (.inl
        1)))) (hl y u ((.inl (.inl 2)))) (hl y u ((.inl (.inl 3)))) (hl y u ((.inl (.inl 4)))) (hl
        y u ((.inr 0))) (hl y u ((.inr 1))) (hl y u ((.inr 2))) (hl y u ((.inr 3))) (raw_line10 y
        u) (by simpa only [zero_mul, add_zero] using hp.2.2.2.2.2.2.2.2.2.2)
    try simp only [zero_mul, add_zero] at h
    refine h.congr_deriv ?_
    rw [sum_var]; simp only [Fin.sum_univ_five, Fin.sum_univ_four]; rfl

lemma gr_d2gdrds_3_0 (y : Var 5 4 → ℝ) (hy : Dom y) :
    Gr (fun y => (tables (raw y) y).d2gdrds 3 0) y ((tables (raw y) y).at3 (.inl (.inl 3)) (.inr 0)) := by
  refine Gr.of_lines ?_ fun u => ?_
  · have hp := pos y hy
    change DifferentiableAt ℝ (fun y => D2GDR3S0 (y (.inl iT)) (y (.inl iP)) (raw y 9) (raw y 10)) y
    have d9 := raw_diff 9 y
    have q9 := hp.2.2.2.2.2.2.2.2.2.1
    have n9 := q9.ne'
    have d10 := raw_diff 10 y
    have q10 := hp.2.2.2.2.2.2.2.2.2.2
    have n10 := q10.ne'
    try simp only [D2GDR3S0, zero_mul, mul_zero, add_zero, zero_add, sub_zero]
    have kGR4S1 := kd_GR4S1 y
    ddq
  · have hp := pos y hy
    have h := c_D2GDR3S0 (hl y u ((.inl iT))) (hl y u ((.inl iP))) (hl y u ((.inl (.inl 0)))) (hl y u ((.inl (.inl
        1)))) (hl y u ((.inl (.inl 2)))) (hl y u ((.inl (.inl 3)))) (hl y u ((.inl (.inl 4)))) (hl
        y u ((.inr 0))) (hl y u ((.inr 1))) (hl y u ((.inr 2))) (hl y u ((.inr 3))) (raw_line9 y
        u) (by simpa only [zero_mul, add_zero] using hp.2.2.2.2.2.2.2.2.2.1) (raw_line10 y u) (by
        simpa only [zero_mul, add_zero] using hp.2.2.2.2.2.2.2.2.2.2)
    try simp only [zero_mul, add_zero] at h
    refine h.congr_deriv ?_
    rw [sum_var]; simp only [Fin.sum_univ_five, Fin.sum_univ_four]; rfl

lemma gr_d2gdrds_3_1 (y : Var 5 4 → ℝ) (hy : Dom y) :
    Gr (fun y => (tables (raw y) y).d2gdrds 3 1) y ((tables (raw y) y).at3 (.inl (.inl 3)) (.inr 1)) := by
  refine Gr.of_lines ?_ fun u => ?_
  · have hp := pos y hy
    change DifferentiableAt ℝ (fun y => D2GDR3S1 (y (.inl iT)) (y (.inl iP)) (raw y 9) (raw y 10)) y
    have d9 := raw_diff 9 y
    have q9 := hp.2.2.2.2.2.2.2.2.2.1
    have n9 := q9.ne'
    have d10 := raw_diff 10 y
    have q10 := hp.2.2.2.2.2.2.2.2.2.2
    have n10 := q10.ne'
    try simp only [D2GDR3S1, zero_mul, mul_zero, add_zero, zero_add, sub_zero]
    have kGR4S2 := kd_GR4S2 y
    ddq
  · have hp := pos y hy
    have h := c_D2GDR3S1 (hl y u ((.inl iT))) (hl y u ((.inl iP))) (hl y u ((.inl (.inl 0)))) (hl y u ((.inl (.inl
        1)))) (hl y u ((.inl (.inl 2)))) (hl y u ((.inl (.inl 3)))) (hl y u ((.inl (.inl 4)))) (hl
        y u ((.inr 0))) (hl y u ((.inr 1))) (hl y u ((.inr 2))) (hl y u ((.inr 3))) (raw_line9 y
        u) (by simpa only [zero_mul, add_zero] using hp.2.2.2.2.2.2.2.2.2.1) (raw_line10 y u) (by
        simpa only [zero_mul, add_zero] using hp.2.2.2.2.2.2.2.2.2.2)
    try simp only [zero_mul, add_zero] at h
    refine h.congr_deriv ?_
    rw [sum_var]; simp only [Fin.sum_univ_five, Fin.sum_univ_four]; rfl

lemma gr_d2gdrds_3_2 (y : Var 5 4 → ℝ) (hy : Dom y) :
    Gr (fun y => (tables (raw y) y).d2gdrds 3 2) y ((tables (raw y) y).at3 (.inl (.inl 3)) (.inr 2)) := by
  refine Gr.of_lines ?_ fun u => ?_
  · have hp := pos y hy
    change DifferentiableAt ℝ (fun y => D2GDR3S2 (y (.inl iT)) (y (.inl iP)) (raw y 9) (raw y 10)) y
    have d9 := raw_diff 9 y
    have q9 := hp.2.2.2.2.2.2.2.2.2.1
    have n9 := q9.ne'
    have d10 := raw_diff 10 y
    have q10 := hp.2.2.2.2.2.2.2.2.2.2
    have n10 := q10.ne'
    try simp only [D2GDR3S2, zero_mul, mul_zero, add_zero, zero_add, sub_zero]
    have kGR4S3 := kd_GR4S3 y
    ddq
  · have hp := pos y hy
    have h := c_D2GDR3S2 (hl y u ((.inl iT))) (hl y u ((.inl iP))) (hl y u ((.inl (.inl 0)))) (hl y u ((.inl (.inl
        1)))) (hl y u ((.inl (.inl 2)))) (hl y u ((.inl (.inl 3)))) (hl y u ((.inl (.inl 4)))) (hl
        y u ((.inr 0))) (hl y u ((.inr 1))) (hl y u ((.inr 2))) (hl y u ((.inr 3))) (raw_line9 y
        u) (by simpa only [zero_mul, add_zero] using hp.2.2.2.2.2.2.2.2.2.1) (raw_line10 y u) (by
        simpa only [zero_mul, add_zero] using hp.2.2.2.2.2.2.2.2.2.2)
    try simp only [zero_mul, add_zero] at h
    refine h.congr_deriv ?_
    rw [sum_var]; simp only [Fin.sum_univ_five, Fin.sum_univ_four]; rfl

lemma gr_d2gdrds_3_3 (y : Var 5 4 → ℝ) (hy : Dom y) :
    Gr (fun y => (tables (raw y) y).d2gdrds 3 3) y ((tables (raw y) y).at3 (.inl (.inl 3)) (.inr 3)) := by
  refine Gr.of_lines ?_ fun u => ?_
  · have hp := pos y hy
    change DifferentiableAt ℝ (fun y => D2GDR3S3 (y (.inl iT)) (y (.inl iP)) (raw y 6) (raw y 7) (raw y 9) (raw y 10)) y
    have d6 := raw_diff 6 y
    have q6 := hp.2.2.2.2.2.2.1
    have n6 := q6.ne'
    have d7 := raw_diff 7 y
    have q7 := hp.2.2.2.2.2.2.2.1
    have n7 := q7.ne'
    have d9 := raw_diff 9 y
    have q9 := hp.2.2.2.2.2.2.2.2.2.1
    have n9 := q9.ne'
    have d10 := raw_diff 10 y
    have q10 := hp.2.2.2.2.2.2.2.2.2.2
    have n10 := q10.ne'
    try simp only [D2GDR3S3, zero_mul, mul_zero, add_zero, zero_add, sub_zero]
    have kGR4S4 := kd_GR4S4 y
    ddq
  · have hp := pos y hy
    have h := c_D2GDR3S3 (hl y u ((.inl iT))) (hl y u ((.inl iP))) (hl y u ((.inl (.inl 0)))) (hl y u ((.inl (.inl
        1)))) (hl y u ((.inl (.inl 2)))) (hl y u ((.inl (.inl 3)))) (hl y u ((.inl (.inl 4)))) (hl
        y u ((.inr 0))) (hl y u ((.inr 1))) (hl y u ((.inr 2))) (hl y u ((.inr 3))) (raw_line6 y
        u) (by simpa only [zero_mul, add_zero] using hp.2.2.2.2.2.2.1) (raw_line7 y u) (by simpa
        only [zero_mul, add_zero] using hp.2.2.2.2.2.2.2.1) (raw_line9 y u) (by simpa only
        [zero_mul, add_zero] using hp.2.2.2.2.2.2.2.2.2.1) (raw_line10 y u) (by simpa only
        [zero_mul, add_zero] using hp.2.2.2.2.2.2.2.2.2.2)
    try simp only [zero_mul, add_zero] at h
    refine h.congr_deriv ?_
    rw [sum_var]; simp only [Fin.sum_univ_five, Fin.sum_univ_four]; rfl

lemma gr_d2gdrdt_3 (y : Var 5 4 → ℝ) (hy : Dom y) :
    Gr (fun y => (tables (raw y) y).d2gdrdt 3) y ((tables (raw y) y).at3 (.inl (.inl 3)) (.inl iT)) := by
  refine Gr.of_lines ?_ fun u => ?_
  · have hp := pos y hy
    change DifferentiableAt ℝ (fun y => D2GDR3DT (raw y 6) (raw y 7) (raw y 9) (raw y 10)) y
    have d6 := raw_diff 6 y
    have q6 := hp.2.2.2.2.2.2.1
    have n6 := q6.ne'
    have d7 := raw_diff 7 y
    have q7 := hp.2.2.2.2.2.2.2.1
    have n7 := q7.ne'
    have d9 := raw_diff 9 y
    have q9 := hp.2.2.2.2.2.2.2.2.2.1
    have n9 := q9.ne'
    have d10 := raw_diff 10 y
    have q10 := hp.2.2.2.2.2.2.2.2.2.2
    have n10 := q10.ne'
    try simp only [D2GDR3DT, zero_mul, mul_zero, add_zero, zero_add, sub_zero]
    ddq
  · have hp := pos y hy
    have h := c_D2GDR3DT (hl y u ((.inl iT))) (hl y u ((.inl iP))) (hl y u ((.inl (.inl 0)))) (hl y u ((.inl (.inl
        1)))) (hl y u ((.inl (.inl 2)))) (hl y u ((.inl (.inl 3)))) (hl y u ((.inl (.inl 4)))) (hl
        y u ((.inr 0))) (hl y u ((.inr 1))) (hl y u ((.inr 2))) (hl y u ((.inr 3))) (raw_line6 y
        u) (by simpa only [zero_mul, add_zero] using hp.2.2.2.2.2.2.1) (raw_line7 y u) (by simpa
        only [zero_mul, add_zero] using hp.2.2.2.2.2.2.2.1) (raw_line9 y u) (by simpa only
        [zero_mul, add_zero] using hp.2.2.2.2.2.2.2.2.2.1) (raw_line10 y u) (by simpa only
        [zero_mul, add_zero] using hp.2.2.2.2.2.2.2.2.2.2)
    try simp only [zero_mul, add_zero] at h
    refine h.congr_deriv ?_
    rw [sum_var]; simp only [Fin.sum_univ_five, Fin.sum_univ_four]; rfl

lemma gr_d2gdrdp_3 (y : Var 5 4 → ℝ) (hy : Dom y) :
    Gr (fun y => (tables (raw y) y).d2gdrdp 3) y ((tables (raw y) y).at3 (.inl (.inl 3)) (.inl iP)) := by
  refine Gr.of_lines ?_ fun u => ?_
  · have hp := pos y hy
    change DifferentiableAt ℝ (fun y => D2GDR3DP (y (.inl (.inl 0))) (y (.inl (.inl 1))) (y (.inl (.inl 2))) (y (.inl (.inl 3))) (y (.inl (.inl 4))) (y (.inr 0)) (y (.inr 1)) (y (.inr 2)) (y (.inr 3))) y
    try simp only [D2GDR3DP, zero_mul, mul_zero, add_zero, zero_add, sub_zero]
    ddq
  · have hp := pos y hy
    have h := c_D2GDR3DP (hl y u ((.inl iT))) (hl y u ((.inl iP))) (hl y u ((.inl (.inl 0)))) (hl y u ((.inl (.inl
        1)))) (hl y u ((.inl (.inl 2)))) (hl y u ((.inl (.inl 3)))) (hl y u ((.inl (.inl 4)))) (hl
        y u ((.inr 0))) (hl y u ((.inr 1))) (hl y u ((.inr 2))) (hl y u ((.inr 3)))
    try simp only [zero_mul, add_zero] at h
    refine h.congr_deriv ?_
    rw [sum_var]; simp only [Fin.sum_univ_five, Fin.sum_univ_four]; rfl

lemma gr_d2gdr2_4_4 (y : Var 5 4 → ℝ) (hy : Dom y) :
    Gr (fun y => (tables (raw y) y).d2gdr2 4 4) y ((tables (raw y) y).at3 (.inl (.inl 4)) (.inl (.inl 4))) := by
  refine Gr.of_lines ?_ fun u => ?_
  · have hp := pos y hy
    change DifferentiableAt ℝ (fun y => D2GDR4R4 (y (.inl iT)) (y (.inl iP)) (raw y 8) (raw y 10)) y
    have d8 := raw_diff 8 y
    have q8 := hp.2.2.2.2.2.2.2.2.1
    have n8 := q8.ne'
    have d10 := raw_diff 10 y
    have q10 := hp.2.2.2.2.2.2.2.2.2.2
    have n10 := q10.ne'
    try simp only [D2GDR4R4, zero_mul, mul_zero, add_zero, zero_add, sub_zero]
    have kGR5R5 := kd_GR5R5 y
    ddq
  · have hp := pos y hy
    have h := c_D2GDR4R4 (hl y u ((.inl iT))) (hl y u ((.inl iP))) (hl y u ((.inl (.inl 0)))) (hl y u ((.inl (.inl
        1)))) (hl y u ((.inl (.inl 2)))) (hl y u ((.inl (.inl 3)))) (hl y u ((.inl (.inl 4)))) (hl
        y u ((.inr 0))) (hl y u ((.inr 1))) (hl y u ((.inr 2))) (hl y u ((.inr 3))) (raw_line8 y
        u) (by simpa only [zero_mul, add_zero] using hp.2.2.2.2.2.2.2.2.1) (raw_line10 y u) (by
        simpa only [zero_mul, add_zero] using hp.2.2.2.2.2.2.2.2.2.2)
    try simp only [zero_mul, add_zero] at h
    refine h.congr_deriv ?_
    rw [sum_var]; simp only [Fin.sum_univ_five, Fin.sum_univ_four]; rfl

lemma gr_d2gdrds_4_0 (y : Var 5 4 → ℝ) (hy : Dom y) :
    Gr (fun y => (tables (raw y) y).d2gdrds 4 0) y ((tables (raw y) y).at3 (.inl (.inl 4)) (.inr 0)) := by
  refine Gr.of_lines ?_ fun u => ?_
  · have hp := pos y hy
    change DifferentiableAt ℝ (fun y => D2GDR4S0 (y (.inl iT)) (y (.inl iP)) (raw y 10)) y
    have d10 := raw_diff 10 y
    have q10 := hp.2.2.2.2.2.2.2.2.2.2
    have n10 := q10.ne'
    try simp only [D2GDR4S0, zero_mul, mul_zero, add_zero, zero_add, sub_zero]
    have kGR5S1 := kd_GR5S1 y
    ddq
  · have hp := pos y hy
    have h := c_D2GDR4S0 (hl y u ((.inl iT))) (hl y u ((.inl iP))) (hl y u ((.inl (.inl 0)))) (hl y u ((.inl (.inl
        1)))) (hl y u ((.inl (.inl 2)))) (hl y u ((.inl (.inl 3)))) (hl y u ((.inl (.inl 4)))) (hl
        y u ((.inr 0))) (hl y u ((.inr 1))) (hl y u ((.inr 2))) (hl y u ((.inr 3))) (raw_line10 y
        u) (by simpa only [zero_mul, add_zero] using hp.2.2.2.2.2.2.2.2.2.2)
    try simp only [zero_mul, add_zero] at h
    refine h.congr_deriv ?_
    rw [sum_var]; simp only [Fin.sum_univ_five, Fin.sum_univ_four]; rfl

lemma gr_d2gdrds_4_1 (y : Var 5 4 → ℝ) (hy : Dom y) :
    Gr (fun y => (tables (raw y) y).d2gdrds 4 1) y ((tables (raw y) y).at3 (.inl (.inl 4)) (.inr 1)) := by
  refine Gr.of_lines ?_ fun u => ?_
  · have hp := pos y hy
    change DifferentiableAt ℝ (fun y => D2GDR4S1 (y (.inl iT)) (y (.inl iP)) (raw y 10)) y
    have d10 := raw_diff 10 y
    have q10 := hp.2.2.2.2.2.2.2.2.2.2
    have n10 := q10.ne'
    try simp only [D2GDR4S1, zero_mul, mul_zero, add_zero, zero_add, sub_zero]
    have kGR5S2 := kd_GR5S2 y
    ddq
  · have hp := pos y hy
    have h := c_D2GDR4S1 (hl y u ((.inl iT))) (hl y u ((.inl iP))) (hl y u ((.inl (.inl 0)))) (hl y u ((.inl (.inl
        1)))) (hl y u ((.inl (.inl 2)))) (hl y u ((.inl (.inl 3)))) (hl y u ((.inl (.inl 4)))) (hl
        y u ((.inr 0))) (hl y u ((.inr 1))) (hl y u ((.inr 2))) (hl y u ((.inr 3))) (raw_line10 y
        u) (by simpa only [zero_mul, add_zero] using hp.2.2.2.2.2.2.2.2.2.2)
    try simp only [zero_mul, add_zero] at h
    refine h.congr_deriv ?_
    rw [sum_var]; simp only [Fin.sum_univ_five, Fin.sum_univ_four]; rfl

lemma gr_d2gdrds_4_2 (y : Var 5 4 → ℝ) (hy : Dom y) :
    Gr (fun y => (tables (raw y) y).d2gdrds 4 2) y ((tables (raw y) y).at3 (.inl (.inl 4)) (.inr 2)) := by
  refine Gr.of_lines ?_ fun u => ?_
  · have hp := pos y hy
    change DifferentiableAt ℝ (fun y => D2GDR4S2 (y (.inl iT)) (y (.inl iP)) (raw y 10)) y
    have d10 := raw_diff 10 y
    have q10 := hp.2.2.2.2.2.2.2.2.2.2
    have n10 := q10.ne'
    try simp only [D2GDR4S2, zero_mul, mul_zero, add_zero, zero_add, sub_zero]
    have kGR5S3 := kd_GR5S3 y
    ddq
  · have hp := pos y hy
    have h := c_D2GDR4S2 (hl y u ((.inl iT))) (hl y u ((.inl iP))) (hl y u ((.inl (.inl 0)))) (hl y u ((.inl (.inl
        1)))) (hl y u ((.inl (.inl 2)))) (hl y u ((.inl (.inl 3)))) (hl y u ((.inl (.inl 4)))) (hl
        y u ((.inr 0))) (hl y u ((.inr 1))) (hl y u ((.inr 2))) (hl y u ((.inr 3))) (raw_line10 y
        u) (by simpa only [zero_mul, add_zero] using hp.2.2.2.2.2.2.2.2.2.2)
    try simp only [zero_mul, add_zero] at h
    refine h.congr_deriv ?_
    rw [sum_var]; simp only [Fin.sum_univ_five, Fin.sum_univ_four]; rfl

lemma gr_d2gdrds_4_3 (y : Var 5 4 → ℝ) (hy : Dom y) :
    Gr (fun y => (tables (raw y) y).d2gdrds 4 3) y ((tables (raw y) y).at3 (.inl (.inl 4)) (.inr 3)) := by
  refine Gr.of_lines ?_ fun u => ?_
  · have hp := pos y hy
    change DifferentiableAt ℝ (fun y => D2GDR4S3 (y (.inl iT)) (y (.inl iP)) (raw y 10)) y
    have d10 := raw_diff 10 y
    have q10 := hp.2.2.2.2.2.2.2.2.2.2
    have n10 := q10.ne'
    try simp only [D2GDR4S3, zero_mul, mul_zero, add_zero, zero_add, sub_zero]
    have kGR5S4 := kd_GR5S4 y
    ddq
  · have hp := pos y hy
    have h := c_D2GDR4S3 (hl y u ((.inl iT))) (hl y u ((.inl iP))) (hl y u ((.inl (.inl 0)))) (hl y u ((.inl (.inl
        1)))) (hl y u ((.inl (.inl 2)))) (hl y u ((.inl (.inl 3)))) (hl y u ((.inl (.inl 4)))) (hl
        y u ((.inr 0))) (hl y u ((.inr 1))) (hl y u ((.inr 2))) (hl y u ((.inr 3))) (raw_line10 y
        u) (by simpa only [zero_mul, add_zero] using hp.2.2.2.2.2.2.2.2.2.2)
    try simp only [zero_mul, add_zero] at h
    refine h.congr_deriv ?_
    rw [sum_var]; simp only [Fin.sum_univ_five, Fin.sum_univ_four]; rfl

lemma gr_d2gdrdt_4 (y : Var 5 4 → ℝ) (hy : Dom y) :
    Gr (fun y => (tables (raw y) y).d2gdrdt 4) y ((tables (raw y) y).at3 (.inl (.inl 4)) (.inl iT)) := by
  refine Gr.of_lines ?_ fun u => ?_
  · have hp := pos y hy
    change DifferentiableAt ℝ (fun y => D2GDR4DT (raw y 8) (raw y 10)) y
    have d8 := raw_diff 8 y
    have q8 := hp.2.2.2.2.2.2.2.2.1
    have n8 := q8.ne'
    have d10 := raw_diff 10 y
    have q10 := hp.2.2.2.2.2.2.2.2.2.2
    have n10 := q10.ne'
    try simp only [D2GDR4DT, zero_mul, mul_zero, add_zero, zero_add, sub_zero]
    ddq
  · have hp := pos y hy
    have h := c_D2GDR4DT (hl y u ((.inl iT))) (hl y u ((.inl iP))) (hl y u ((.inl (.inl 0)))) (hl y u ((.inl (.inl
        1)))) (hl y u ((.inl (.inl 2)))) (hl y u ((.inl (.inl 3)))) (hl y u ((.inl (.inl 4)))) (hl
        y u ((.inr 0))) (hl y u ((.inr 1))) (hl y u ((.inr 2))) (hl y u ((.inr 3))) (raw_line8 y
        u) (by simpa only [zero_mul, add_zero] using hp.2.2.2.2.2.2.2.2.1) (raw_line10 y u) (by
        simpa only [zero_mul, add_zero] using hp.2.2.2.2.2.2.2.2.2.2)
    try simp only [zero_mul, add_zero] at h
    refine h.congr_deriv ?_
    rw [sum_var]; simp only [Fin.sum_univ_five, Fin.sum_univ_four]; rfl

lemma gr_d2gdrdp_4 (y : Var 5 4 → ℝ) (hy : Dom y) :
    Gr (fun y => (tables (raw y) y).d2gdrdp 4) y ((tables (raw y) y).at3 (.inl (.inl 4)) (.inl iP)) := by
  refine Gr.of_lines ?_ fun u => ?_
  · have hp := pos y hy
    change DifferentiableAt ℝ (fun y => D2GDR4DP (y (.inl (.inl 0))) (y (.inl (.inl 1))) (y (.inl (.inl 2))) (y (.inl (.inl 3))) (y (.inl (.inl 4))) (y (.inr 0)) (y (.inr 1)) (y (.inr 2)) (y (.inr 3))) y
    try simp only [D2GDR4DP, zero_mul, mul_zero, add_zero, zero_add, sub_zero]
    ddq
  · have hp := pos y hy
    have h := c_D2GDR4DP (hl y u ((.inl iT))) (hl y u ((.inl iP))) (hl y u ((.inl (.inl 0)))) (hl y u ((.inl (.inl
        1)))) (hl y u ((.inl (.inl 2)))) (hl y u ((.inl (.inl 3)))) (hl y u ((.inl (.inl 4)))) (hl
        y u ((.inr 0))) (hl y u ((.inr 1))) (hl y u ((.inr 2))) (hl y u ((.inr 3)))
    try simp only [zero_mul, add_zero] at h
    refine h.congr_deriv ?_
    rw [sum_var]; simp only [Fin.sum_univ_five, Fin.sum_univ_four]; rfl

lemma gr_d2gds2_0_0 (y : Var 5 4 → ℝ) (hy : Dom y) :
    Gr (fun y => (tables (raw y) y).d2gds2 0 0) y ((tables (raw y) y).at3 (.inr 0) (.inr 0)) := by
  refine Gr.of_lines ?_ fun u => ?_
  · have hp := pos y hy
    change DifferentiableAt ℝ (fun y => D2GDS0S0 (y (.inl iT)) (y (.inl iP)) (raw y 0) (raw y 1) (raw y 9) (raw y 10)) y
    have d0 := raw_diff 0 y
    have q0 := hp.1
    have n0 := q0.ne'
    have d1 := raw_diff 1 y
    have q1 := hp.2.1
    have n1 := q1.ne'
    have d9 := raw_diff 9 y
    have q9 := hp.2.2.2.2.2.2.2.2.2.1
    have n9 := q9.ne'
    have d10 := raw_diff 10 y
    have q10 := hp.2.2.2.2.2.2.2.2.2.2
    have n10 := q10.ne'
    try simp only [D2GDS0S0, zero_mul, mul_zero, add_zero, zero_add, sub_zero]
    have kGS1S1 := kd_GS1S1 y
    ddq
  · have hp := pos y hy
    have h := c_D2GDS0S0 (hl y u ((.inl iT))) (hl y u ((.inl iP))) (hl y u ((.inl (.inl 0)))) (hl y u ((.inl (.inl
        1)))) (hl y u ((.inl (.inl 2)))) (hl y u ((.inl (.inl 3)))) (hl y u ((.inl (.inl 4)))) (hl
        y u ((.inr 0))) (hl y u ((.inr 1))) (hl y u ((.inr 2))) (hl y u ((.inr 3))) (raw_line0 y
        u) (by simpa only [zero_mul, add_zero] using hp.1) (raw_line1 y u) (by simpa only
        [zero_mul, add_zero] using hp.2.1) (raw_line9 y u) (by simpa only [zero_mul, add_zero]
        using hp.2.2.2.2.2.2.2.2.2.1) (raw_line10 y u) (by simpa only [zero_mul, add_zero] using
        hp.2.2.2.2.2.2.2.2.2.2)
    try simp only [zero_mul, add_zero] at h
    refine h.congr_deriv ?_
    rw [sum_var]; simp only [Fin.sum_univ_five, Fin.sum_univ_four]; rfl

lemma gr_d2gds2_0_1 (y : Var 5 4 → ℝ) (hy : Dom y) :
    Gr (fun y => (tables (raw y) y).d2gds2 0 1) y ((tables (raw y) y).at3 (.inr 0) (.inr 1)) := by
  refine Gr.of_lines ?_ fun u => ?_
  · have hp := pos y hy
    change DifferentiableAt ℝ (fun y => D2GDS0S1 (y (.inl iT)) (y (.inl iP)) (raw y 9) (raw y 10)) y
    have d9 := raw_diff 9 y
    have q9 := hp.2.2.2.2.2.2.2.2.2.1
    have n9 := q9.ne'
    have d10 := raw_diff 10 y
    have q10 := hp.2.2.2.2.2.2.2.2.2.2
    have n10 := q10.ne'
    try simp only [D2GDS0S1, zero_mul, mul_zero, add_zero, zero_add, sub_zero]
    have kGS1S2 := kd_GS1S2 y
    ddq
  · have hp := pos y hy
    have h := c_D2GDS0S1 (hl y u ((.inl iT))) (hl y u ((.inl iP))) (hl y u ((.inl (.inl 0)))) (hl y u ((.inl (.inl
        1)))) (hl y u ((.inl (.inl 2)))) (hl y u ((.inl (.inl 3)))) (hl y u ((.inl (.inl 4)))) (hl
        y u ((.inr 0))) (hl y u ((.inr 1))) (hl y u ((.inr 2))) (hl y u ((.inr 3))) (raw_line9 y
        u) (by simpa only [zero_mul, add_zero] using hp.2.2.2.2.2.2.2.2.2.1) (raw_line10 y u) (by
        simpa only [zero_mul, add_zero] using hp.2.2.2.2.2.2.2.2.2.2)
    try simp only [zero_mul, add_zero] at h
    refine h.congr_deriv ?_
    rw [sum_var]; simp only [Fin.sum_univ_five, Fin.sum_univ_four]; rfl

lemma gr_d2gds2_0_2 (y : Var 5 4 → ℝ) (hy : Dom y) :
    Gr (fun y => (tables (raw y) y).d2gds2 0 2) y ((tables (raw y) y).at3 (.inr 0) (.inr 2)) := by
  refine Gr.of_lines ?_ fun u => ?_
  · have hp := pos y hy
    change DifferentiableAt ℝ (fun y => D2GDS0S2 (y (.inl iT)) (y (.inl iP)) (raw y 9) (raw y 10)) y
    have d9 := raw_diff 9 y
    have q9 := hp.2.2.2.2.2.2.2.2.2.1
    have n9 := q9.ne'
    have d10 := raw_diff 10 y
    have q10 := hp.2.2.2.2.2.2.2.2.2.2
    have n10 := q10.ne'
    try simp only [D2GDS0S2, zero_mul, mul_zero, add_zero, zero_add, sub_zero]
    have kGS1S3 := kd_GS1S3 y
    ddq
  · have hp := pos y hy
    have h := c_D2GDS0S2 (hl y u ((.inl iT))) (hl y u ((.inl iP))) (hl y u ((.inl (.inl 0)))) (hl y u ((.inl (.inl
        1)))) (hl y u ((.inl (.inl 2)))) (hl y u ((.inl (.inl 3)))) (hl y u ((.inl (.inl 4)))) (hl
        y u ((.inr 0))) (hl y u ((.inr 1))) (hl y u ((.inr 2))) (hl y u ((.inr 3))) (raw_line9 y
        u) (by simpa only [zero_mul, add_zero] using hp.2.2.2.2.2.2.2.2.2.1) (raw_line10 y u) (by
        simpa only [zero_mul, add_zero] using hp.2.2.2.2.2.2.2.2.2.2)
    try simp only [zero_mul, add_zero] at h
    refine h.congr_deriv ?_
    rw [sum_var]; simp only [Fin.sum_univ_five, Fin.sum_univ_four]; rfl

lemma gr_d2gds2_0_3 (y : Var 5 4 → ℝ) (hy : Dom y) :
    Gr (fun y => (tables (raw y) y).d2gds2 0 3) y ((tables (raw y) y).at3 (.inr 0) (.inr 3)) := by
  refine Gr.of_lines ?_ fun u => ?_
  · have hp := pos y hy
    change DifferentiableAt ℝ (fun y => D2GDS0S3 (y (.inl iT)) (y (.inl iP)) (raw y 9) (raw y 10)) y
    have d9 := raw_diff 9 y
    have q9 := hp.2.2.2.2.2.2.2.2.2.1
    have n9 := q9.ne'
    have d10 := raw_diff 10 y
    have q10 := hp.2.2.2.2.2.2.2.2.2.2
    have n10 := q10.ne'
    try simp only [D2GDS0S3, zero_mul, mul_zero, add_zero, zero_add, sub_zero]
    have kGS1S4 := kd_GS1S4 y
    ddq
  · have hp := pos y hy
    have h := c_D2GDS0S3 (hl y u ((.inl iT))) (hl y u ((.inl iP))) (hl y u ((.inl (.inl 0)))) (hl y u ((.inl (.inl
        1)))) (hl y u ((.inl (.inl 2)))) (hl y u ((.inl (.inl 3)))) (hl y u ((.inl (.inl 4)))) (hl
        y u ((.inr 0))) (hl y u ((.inr 1))) (hl y u ((.inr 2))) (hl y u ((.inr 3))) (raw_line9 y
        u) (by simpa only [zero_mul, add_zero] using hp.2.2.2.2.2.2.2.2.2.1) (raw_line10 y u) (by
        simpa only [zero_mul, add_zero] using hp.2.2.2.2.2.2.2.2.2.2)
    try simp only [zero_mul, add_zero] at h
    refine h.congr_deriv ?_
    rw [sum_var]; simp only [Fin.sum_univ_five, Fin.sum_univ_four]; rfl

lemma gr_d2gdsdt_0 (y : Var 5 4 → ℝ) (hy : Dom y) :
    Gr (fun y => (tables (raw y) y).d2gdsdt 0) y ((tables (raw y) y).at3 (.inr 0) (.inl iT)) := by
  refine Gr.of_lines ?_ fun u => ?_
  · have hp := pos y hy
    change DifferentiableAt ℝ (fun y => D2GDS0DT (raw y 0) (raw y 1) (raw y 9) (raw y 10)) y
    have d0 := raw_diff 0 y
    have q0 := hp.1
    have n0 := q0.ne'
    have d1 := raw_diff 1 y
    have q1 := hp.2.1
    have n1 := q1.ne'
    have d9 := raw_diff 9 y
    have q9 := hp.2.2.2.2.2.2.2.2.2.1
    have n9 := q9.ne'
    have d10 := raw_diff 10 y
    have q10 := hp.2.2.2.2.2.2.2.2.2.2
    have n10 := q10.ne'
    try simp only [D2GDS0DT, zero_mul, mul_zero, add_zero, zero_add, sub_zero]
    ddq
  · have hp := pos y hy
    have h := c_D2GDS0DT (hl y u ((.inl iT))) (hl y u ((.inl iP))) (hl y u ((.inl (.inl 0)))) (hl y u ((.inl (.inl
        1)))) (hl y u ((.inl (.inl 2)))) (hl y u ((.inl (.inl 3)))) (hl y u ((.inl (.inl 4)))) (hl
        y u ((.inr 0))) (hl y u ((.inr 1))) (hl y u ((.inr 2))) (hl y u ((.inr 3))) (raw_line0 y
        u) (by simpa only [zero_mul, add_zero] using hp.1) (raw_line1 y u) (by simpa only
        [zero_mul, add_zero] using hp.2.1) (raw_line9 y u) (by simpa only [zero_mul, add_zero]
        using hp.2.2.2.2.2.2.2.2.2.1) (raw_line10 y u) (by simpa only [zero_mul, add_zero] using
        hp.2.2.2.2.2.2.2.2.2.2)
    try simp only [zero_mul, add_zero] at h
    refine h.congr_deriv ?_
    rw [sum_var]; simp only [Fin.sum_univ_five, Fin.sum_univ_four]; rfl

lemma gr_d2gdsdp_0 (y : Var 5 4 → ℝ) (hy : Dom y) :
    Gr (fun y => (tables (raw y) y).d2gdsdp 0) y ((tables (raw y) y).at3 (.inr 0) (.inl iP)) := by
  refine Gr.of_lines ?_ fun u => ?_
  · have hp := pos y hy
    change DifferentiableAt ℝ (fun y => D2GDS0DP (y (.inl (.inl 0))) (y (.inl (.inl 1))) (y (.inl (.inl 2))) (y (.inl (.inl 3))) (y (.inl (.inl 4))) (y (.inr 0)) (y (.inr 1)) (y (.inr 2)) (y (.inr 3))) y
    try simp only [D2GDS0DP, zero_mul, mul_zero, add_zero, zero_add, sub_zero]
    ddq
  · have hp := pos y hy
    have h := c_D2GDS0DP (hl y u ((.inl iT))) (hl y u ((.inl iP))) (hl y u ((.inl (.inl 0)))) (hl y u ((.inl (.inl
        1)))) (hl y u ((.inl (.inl 2)))) (hl y u ((.inl (.inl 3)))) (hl y u ((.inl (.inl 4)))) (hl
        y u ((.inr 0))) (hl y u ((.inr 1))) (hl y u ((.inr 2))) (hl y u ((.inr 3)))
    try simp only [zero_mul, add_zero] at h
    refine h.congr_deriv ?_
    rw [sum_var]; simp only [Fin.sum_univ_five, Fin.sum_univ_four]; rfl

lemma gr_d2gds2_1_1 (y : Var 5 4 → ℝ) (hy : Dom y) :
    Gr (fun y => (tables (raw y) y).d2gds2 1 1) y ((tables (raw y) y).at3 (.inr 1) (.inr 1)) := by
  refine Gr.of_lines ?_ fun u => ?_
  · have hp := pos y hy
    change DifferentiableAt ℝ (fun y => D2GDS1S1 (y (.inl iT)) (y (.inl iP)) (raw y 2) (raw y 3) (raw y 9) (raw y 10)) y
    have d2 := raw_diff 2 y
    have q2 := hp.2.2.1
    have n2 := q2.ne'
    have d3 := raw_diff 3 y
    have q3 := hp.2.2.2.1
    have n3 := q3.ne'
    have d9 := raw_diff 9 y
    have q9 := hp.2.2.2.2.2.2.2.2.2.1
    have n9 := q9.ne'
    have d10 := raw_diff 10 y
    have q10 := hp.2.2.2.2.2.2.2.2.2.2
    have n10 := q10.ne'
    try simp only [D2GDS1S1, zero_mul, mul_zero, add_zero, zero_add, sub_zero]
    have kGS2S2 := kd_GS2S2 y
    ddq
  · have hp := pos y hy
    have h := c_D2GDS1S1 (hl y u ((.inl iT))) (hl y u ((.inl iP))) (hl y u ((.inl (.inl 0)))) (hl y u ((.inl (.inl
        1)))) (hl y u ((.inl (.inl 2)))) (hl y u ((.inl (.inl 3)))) (hl y u ((.inl (.inl 4)))) (hl
        y u ((.inr 0))) (hl y u ((.inr 1))) (hl y u ((.inr 2))) (hl y u ((.inr 3))) (raw_line2 y
        u) (by simpa only [zero_mul, add_zero] using hp.2.2.1) (raw_line3 y u) (by simpa only
        [zero_mul, add_zero] using hp.2.2.2.1) (raw_line9 y u) (by simpa only [zero_mul, add_zero]
        using hp.2.2.2.2.2.2.2.2.2.1) (raw_line10 y u) (by simpa only [zero_mul, add_zero] using
        hp.2.2.2.2.2.2.2.2.2.2)
    try simp only [zero_mul, add_zero] at h
    refine h.congr_deriv ?_
    rw [sum_var]; simp only [Fin.sum_univ_five, Fin.sum_univ_four]; rfl

lemma gr_d2gds2_1_2 (y : Var 5 4 → ℝ) (hy : Dom y) :
    Gr (fun y => (tables (raw y) y).d2gds2 1 2) y ((tables (raw y) y).at3 (.inr 1) (.inr 2)) := by
  refine Gr.of_lines ?_ fun u => ?_
  · have hp := pos y hy
    change DifferentiableAt ℝ (fun y => D2GDS1S2 (y (.inl iT)) (y (.inl iP)) (raw y 9) (raw y 10)) y
    have d9 := raw_diff 9 y
    have q9 := hp.2.2.2.2.2.2.2.2.2.1
    have n9 := q9.ne'
    have d10 := raw_diff 10 y
    have q10 := hp.2.2.2.2.2.2.2.2.2.2
    have n10 := q10.ne'
    try simp only [D2GDS1S2, zero_mul, mul_zero, add_zero, zero_add, sub_zero]
    have kGS2S3 := kd_GS2S3 y
    ddq
  · have hp := pos y hy
    have h := c_D2GDS1S2 (hl y u ((.inl iT))) (hl y u ((.inl iP))) (hl y u ((.inl (.inl 0)))) (hl y u ((.inl (.inl
        1)))) (hl y u ((.inl (.inl 2)))) (hl y u ((.inl (.inl 3)))) (hl y u ((.inl (.inl 4)))) (hl
        y u ((.inr 0))) (hl y u ((.inr 1))) (hl y u ((.inr 2))) (hl y u ((.inr 3))) (raw_line9 y
        u) (by simpa only [zero_mul, add_zero] using hp.2.2.2.2.2.2.2.2.2.1) (raw_line10 y u) (by
        simpa only [zero_mul, add_zero] using hp.2.2.2.2.2.2.2.2.2.2)
    try simp only [zero_mul, add_zero] at h
    refine h.congr_deriv ?_
    rw [sum_var]; simp only [Fin.sum_univ_five, Fin.sum_univ_four]; rfl

lemma gr_d2gds2_1_3 (y : Var 5 4 → ℝ) (hy : Dom y) :
    Gr (fun y => (tables (raw y) y).d2gds2 1 3) y ((tables (raw y) y).at3 (.inr 1) (.inr 3)) := by
  refine Gr.of_lines ?_ fun u => ?_
  · have hp := pos y hy
    change DifferentiableAt ℝ (fun y => D2GDS1S3 (y (.inl iT)) (y (.inl iP)) (raw y 9) (raw y 10)) y
    have d9 := raw_diff 9 y
    have q9 := hp.2.2.2.2.2.2.2.2.2.1
    have n9 := q9.ne'
    have d10 := raw_diff 10 y
    have q10 := hp.2.2.2.2.2.2.2.2.2.2
    have n10 := q10.ne'
    try simp only [D2GDS1S3, zero_mul, mul_zero, add_zero, zero_add, sub_zero]
    have kGS2S4 := kd_GS2S4 y
    ddq
  · have hp := pos y hy
    have h := c_D2GDS1S3 (hl y u ((.inl iT))) (hl y u ((.inl iP))) (hl y u ((.inl (.inl 0)))) (hl y u ((.inl (.inl
        1)))) (hl y u ((.inl (.inl 2)))) (hl y u ((.inl (.inl 3)))) (hl y u ((.inl (.inl 4)))) (hl
        y u ((.inr 0))) (hl y u ((.inr 1))) (hl y u ((.inr 2))) (hl y u ((.inr 3))) (raw_line9 y
        u) (by simpa only [zero_mul, add_zero] using hp.2.2.2.2.2.2.2.2.2.1) (raw_line10 y u) (by
        simpa only [zero_mul, add_zero] using hp.2.2.2.2.2.2.2.2.2.2)
    try simp only [zero_mul, add_zero] at h
    refine h.congr_deriv ?_
    rw [sum_var]; simp only [Fin.sum_univ_five, Fin.sum_univ_four]; rfl

lemma gr_d2gdsdt_1 (y : Var 5 4 → ℝ) (hy : Dom y) :
    Gr (fun y => (tables (raw y) y).d2gdsdt 1) y ((tables (raw y) y).at3 (.inr 1) (.inl iT)) := by
  refine Gr.of_lines ?_ fun u => ?_
  · have hp := pos y hy
    change DifferentiableAt ℝ (fun y => D2GDS1DT (raw y 2) (raw y 3) (raw y 9) (raw y 10)) y
    have d2 := raw_diff 2 y
    have q2 := hp.2.2.1
    have n2 := q2.ne'
    have d3 := raw_diff 3 y
    have q3 := hp.2.2.2.1
    have n3 := q3.ne'
    have d9 := raw_diff 9 y
    have q9 := hp.2.2.2.2.2.2.2.2.2.1
    have n9 := q9.ne'
    have d10 := raw_diff 10 y
    have q10 := hp.2.2.2.2.2.2.2.2.2.2
    have n10 := q10.ne'
    try simp only [D2GDS1DT, zero_mul, mul_zero, add_zero, zero_add, sub_zero]
    ddq
  · have hp := pos y hy
    have h := c_D2GDS1DT (hl y u ((.inl iT))) (hl y u ((.inl iP))) (hl y u ((.inl (.inl 0)))) (hl y u ((.inl (.inl
        1)))) (hl y u ((.inl (.inl 2)))) (hl y u ((.inl (.inl 3)))) (hl y u ((.inl (.inl 4)))) (hl
        y u ((.inr 0))) (hl y u ((.inr 1))) (hl y u ((.inr 2))) (hl y u ((.inr 3))) (raw_line2 y
        u) (by simpa only [zero_mul, add_zero] using hp.2.2.1) (raw_line3 y u) (by simpa only
        [zero_mul, add_zero] using hp.2.2.2.1) (raw_line9 y u) (by simpa only [zero_mul, add_zero]
        using hp.2.2.2.2.2.2.2.2.2.1) (raw_line10 y u) (by simpa only [zero_mul, add_zero] using
        hp.2.2.2.2.2.2.2.2.2.2)
    try simp only [zero_mul, add_zero] at h
    refine h.congr_deriv ?_
    rw [sum_var]; simp only [Fin.sum_univ_five, Fin.sum_univ_four]; rfl

lemma gr_d2gdsdp_1 (y : Var 5 4 → ℝ) (hy : Dom y) :
    Gr (fun y => (tables (raw y) y).d2gdsdp 1) y ((tables (raw y) y).at3 (.inr 1) (.inl iP)) := by
  refine Gr.of_lines ?_ fun u => ?_
  · have hp := pos y hy
    change DifferentiableAt ℝ (fun y => D2GDS1DP (y (.inl (.inl 0))) (y (.inl (.inl 1))) (y (.inl (.inl 2))) (y (.inl (.inl 3))) (y (.inl (.inl 4))) (y (.inr 0)) (y (.inr 1)) (y (.inr 2)) (y (.inr 3))) y
    try simp only [D2GDS1DP, zero_mul, mul_zero, add_zero, zero_add, sub_zero]
    ddq
  · have hp := pos y hy
    have h := c_D2GDS1DP (hl y u ((.inl iT))) (hl y u ((.inl iP))) (hl y u ((.inl (.inl 0)))) (hl y u ((.inl (.inl
        1)))) (hl y u ((.inl (.inl 2)))) (hl y u ((.inl (.inl 3)))) (hl y u ((.inl (.inl 4)))) (hl
        y u ((.inr 0))) (hl y u ((.inr 1))) (hl y u ((.inr 2))) (hl y u ((.inr 3)))
    try simp only [zero_mul, add_zero] at h
    refine h.congr_deriv ?_
    rw [sum_var]; simp only [Fin.sum_univ_five, Fin.sum_univ_four]; rfl

lemma gr_d2gds2_2_2 (y : Var 5 4 → ℝ) (hy : Dom y) :
    Gr (fun y => (tables (raw y) y).d2gds2 2 2) y ((tables (raw y) y).at3 (.inr 2) (.inr 2)) := by
  refine Gr.of_lines ?_ fun u => ?_
  · have hp := pos y hy
    change DifferentiableAt ℝ (fun y => D2GDS2S2 (y (.inl iT)) (y (.inl iP)) (raw y 4) (raw y 5) (raw y 9) (raw y 10)) y
    have d4 := raw_diff 4 y
    have q4 := hp.2.2.2.2.1
    have n4 := q4.ne'
    have d5 := raw_diff 5 y
    have q5 := hp.2.2.2.2.2.1
    have n5 := q5.ne'
    have d9 := raw_diff 9 y
    have q9 := hp.2.2.2.2.2.2.2.2.2.1
    have n9 := q9.ne'
    have d10 := raw_diff 10 y
    have q10 := hp.2.2.2.2.2.2.2.2.2.2
    have n10 := q10.ne'
    try simp only [D2GDS2S2, zero_mul, mul_zero, add_zero, zero_add, sub_zero]
    have kGS3S3 := kd_GS3S3 y
    ddq
  · have hp := pos y hy
    have h := c_D2GDS2S2 (hl y u ((.inl iT))) (hl y u ((.inl iP))) (hl y u ((.inl (.inl 0)))) (hl y u ((.inl (.inl
        1)))) (hl y u ((.inl (.inl 2)))) (hl y u ((.inl (.inl 3)))) (hl y u ((.inl (.inl 4)))) (hl
        y u ((.inr 0))) (hl y u ((.inr 1))) (hl y u ((.inr 2))) (hl y u ((.inr 3))) (raw_line4 y
        u) (by simpa only [zero_mul, add_zero] using hp.2.2.2.2.1) (raw_line5 y u) (by simpa only
        [zero_mul, add_zero] using hp.2.2.2.2.2.1) (raw_line9 y u) (by simpa only [zero_mul,
        add_zero] using hp.2.2.2.2.2.2.2.2.2.1) (raw_line10 y u) (by simpa only [zero_mul,
        add_zero] using hp.2.2.2.2.2.2.2.2.2.2)
    try simp only [zero_mul, add_zero] at h
    refine h.congr_deriv ?_
    rw [sum_var]; simp only [Fin.sum_univ_five, Fin.sum_univ_four]; rfl

lemma gr_d2gds2_2_3 (y : Var 5 4 → ℝ) (hy : Dom y) :
    Gr (fun y => (tables (raw y) y).d2gds2 2 3) y ((tables (raw y) y).at3 (.inr 2) (.inr 3)) := by
  refine Gr.of_lines ?_ fun u => ?_
  · have hp := pos y hy
    change DifferentiableAt ℝ (fun y => D2GDS2S3 (y (.inl iT)) (y (.inl iP)) (raw y 9) (raw y 10)) y
    have d9 := raw_diff 9 y
    have q9 := hp.2.2.2.2.2.2.2.2.2.1
    have n9 := q9.ne'
    have d10 := raw_diff 10 y
    have q10 := hp.2.2.2.2.2.2.2.2.2.2
    have n10 := q10.ne'
    try simp only [D2GDS2S3, zero_mul, mul_zero, add_zero, zero_add, sub_zero]
    have kGS3S4 := kd_GS3S4 y
    ddq
  · have hp := pos y hy
    have h := c_D2GDS2S3 (hl y u ((.inl iT))) (hl y u ((.inl iP))) (hl y u ((.inl (.inl 0)))) (hl y u ((.inl (.inl
        1)))) (hl y u ((.inl (.inl 2)))) (hl y u ((.inl (.inl 3)))) (hl y u ((.inl (.inl 4)))) (hl
        y u ((.inr 0))) (hl y u ((.inr 1))) (hl y u ((.inr 2))) (hl y u ((.inr 3))) (raw_line9 y
        u) (by simpa only [zero_mul, add_zero] using hp.2.2.2.2.2.2.2.2.2.1) (raw_line10 y u) (by
        simpa only [zero_mul, add_zero] using hp.2.2.2.2.2.2.2.2.2.2)
    try simp only [zero_mul, add_zero] at h
    refine h.congr_deriv ?_
    rw [sum_var]; simp only [Fin.sum_univ_five, Fin.sum_univ_four]; rfl

lemma gr_d2gdsdt_2 (y : Var 5 4 → ℝ) (hy : Dom y) :
    Gr (fun y => (tables (raw y) y).d2gdsdt 2) y ((tables (raw y) y).at3 (.inr 2) (.inl iT)) := by
  refine Gr.of_lines ?_ fun u => ?_
  · have hp := pos y hy
    change DifferentiableAt ℝ (fun y => D2GDS2DT (raw y 4) (raw y 5) (raw y 9) (raw y 10)) y
    have d4 := raw_diff 4 y
    have q4 := hp.2.2.2.2.1
    have n4 := q4.ne'
    have d5 := raw_diff 5 y
    have q5 := hp.2.2.2.2.2.1
    have n5 := q5.ne'
    have d9 := raw_diff 9 y
    have q9 := hp.2.2.2.2.2.2.2.2.2.1
    have n9 := q9.ne'
    have d10 := raw_diff 10 y
    have q10 := hp.2.2.2.2.2.2.2.2.2.2
    have n10 := q10.ne'
    try simp only [D2GDS2DT, zero_mul, mul_zero, add_zero, zero_add, sub_zero]
    ddq
  · have hp := pos y hy
    have h := c_D2GDS2DT (hl y u ((.inl iT))) (hl y u ((.inl iP))) (hl y u ((.inl (.inl 0)))) (hl y u ((.inl (.inl
        1)))) (hl y u ((.inl (.inl 2)))) (hl y u ((.inl (.inl 3)))) (hl y u ((.inl (.inl 4)))) (hl
        y u ((.inr 0))) (hl y u ((.inr 1))) (hl y u ((.inr 2))) (hl y u ((.inr 3))) (raw_line4 y
        u) (by simpa only [zero_mul, add_zero] using hp.2.2.2.2.1) (raw_line5 y u) (by simpa only
        [zero_mul, add_zero] using hp.2.2.2.2.2.1) (raw_line9 y u) (by simpa only [zero_mul,
        add_zero] using hp.2.2.2.2.2.2.2.2.2.1) (raw_line10 y u) (by simpa only [zero_mul,
        add_zero] using hp.2.2.2.2.2.2.2.2.2.2)
    try simp only [zero_mul, add_zero] at h
    refine h.congr_deriv ?_
    rw [sum_var]; simp only [Fin.sum_univ_five, Fin.sum_univ_four]; rfl

lemma gr_d2gdsdp_2 (y : Var 5 4 → ℝ) (hy : Dom y) :
    Gr (fun y => (tables (raw y) y).d2gdsdp 2) y ((tables (raw y) y).at3 (.inr 2) (.inl iP)) := by
  refine Gr.of_lines ?_ fun u => ?_
  · have hp := pos y hy
    change DifferentiableAt ℝ (fun y => D2GDS2DP (y (.inl (.inl 0))) (y (.inl (.inl 1))) (y (.inl (.inl 2))) (y (.inl (.inl 3))) (y (.inl (.inl 4))) (y (.inr 0)) (y (.inr 1)) (y (.inr 2)) (y (.inr 3))) y
    try simp only [D2GDS2DP, zero_mul, mul_zero, add_zero, zero_add, sub_zero]
    ddq
  · have hp := pos y hy
    have h := c_D2GDS2DP (hl y u ((.inl iT))) (hl y u ((.inl iP))) (hl y u ((.inl (.inl 0)))) (hl y u ((.inl (.inl
        1)))) (hl y u ((.inl (.inl 2)))) (hl y u ((.inl (.inl 3)))) (hl y u ((.inl (.inl 4)))) (hl
        y u ((.inr 0))) (hl y u ((.inr 1))) (hl y u ((.inr 2))) (hl y u ((.inr 3)))
    try simp only [zero_mul, add_zero] at h
    refine h.congr_deriv ?_
    rw [sum_var]; simp only [Fin.sum_univ_five, Fin.sum_univ_four]; rfl

lemma gr_d2gds2_3_3 (y : Var 5 4 → ℝ) (hy : Dom y) :
    Gr (fun y => (tables (raw y) y).d2gds2 3 3) y ((tables (raw y) y).at3 (.inr 3) (.inr 3)) := by
  refine Gr.of_lines ?_ fun u => ?_
  · have hp := pos y hy
    change DifferentiableAt ℝ (fun y => D2GDS3S3 (y (.inl iT)) (y (.inl iP)) (raw y 6) (raw y 7) (raw y 9) (raw y 10)) y
    have d6 := raw_diff 6 y
    have q6 := hp.2.2.2.2.2.2.1
    have n6 := q6.ne'
    have d7 := raw_diff 7 y
    have q7 := hp.2.2.2.2.2.2.2.1
    have n7 := q7.ne'
    have d9 := raw_diff 9 y
    have q9 := hp.2.2.2.2.2.2.2.2.2.1
    have n9 := q9.ne'
    have d10 := raw_diff 10 y
    have q10 := hp.2.2.2.2.2.2.2.2.2.2
    have n10 := q10.ne'
    try simp only [D2GDS3S3, zero_mul, mul_zero, add_zero, zero_add, sub_zero]
    have kGS4S4 := kd_GS4S4 y
    ddq
  · have hp := pos y hy
    have h := c_D2GDS3S3 (hl y u ((.inl iT))) (hl y u ((.inl iP))) (hl y u ((.inl (.inl 0)))) (hl y u ((.inl (.inl
        1)))) (hl y u ((.inl (.inl 2)))) (hl y u ((.inl (.inl 3)))) (hl y u ((.inl (.inl 4)))) (hl
        y u ((.inr 0))) (hl y u ((.inr 1))) (hl y u ((.inr 2))) (hl y u ((.inr 3))) (raw_line6 y
        u) (by simpa only [zero_mul, add_zero] using hp.2.2.2.2.2.2.1) (raw_line7 y u) (by simpa
        only [zero_mul, add_zero] using hp.2.2.2.2.2.2.2.1) (raw_line9 y u) (by simpa only
        [zero_mul, add_zero] using hp.2.2.2.2.2.2.2.2.2.1) (raw_line10 y u) (by simpa only
        [zero_mul, add_zero] using hp.2.2.2.2.2.2.2.2.2.2)
    try simp only [zero_mul, add_zero] at h
    refine h.congr_deriv ?_
    rw [sum_var]; simp only [Fin.sum_univ_five, Fin.sum_univ_four]; rfl

lemma gr_d2gdsdt_3 (y : Var 5 4 → ℝ) (hy : Dom y) :
    Gr (fun y => (tables (raw y) y).d2gdsdt 3) y ((tables (raw y) y).at3 (.inr 3) (.inl iT)) := by
  refine Gr.of_lines ?_ fun u => ?_
  · have hp := pos y hy
    change DifferentiableAt ℝ (fun y => D2GDS3DT (raw y 6) (raw y 7) (raw y 9) (raw y 10)) y
    have d6 := raw_diff 6 y
    have q6 := hp.2.2.2.2.2.2.1
    have n6 := q6.ne'
    have d7 := raw_diff 7 y
    have q7 := hp.2.2.2.2.2.2.2.1
    have n7 := q7.ne'
    have d9 := raw_diff 9 y
    have q9 := hp.2.2.2.2.2.2.2.2.2.1
    have n9 := q9.ne'
    have d10 := raw_diff 10 y
    have q10 := hp.2.2.2.2.2.2.2.2.2.2
    have n10 := q10.ne'
    try simp only [D2GDS3DT, zero_mul, mul_zero, add_zero, zero_add, sub_zero]
    ddq
  · have hp := pos y hy
    have h := c_D2GDS3DT (hl y u ((.inl iT))) (hl y u ((.inl iP))) (hl y u ((.inl (.inl 0)))) (hl y u ((.inl (.inl
        1)))) (hl y u ((.inl (.inl 2)))) (hl y u ((.inl (.inl 3)))) (hl y u ((.inl (.inl 4)))) (hl
        y u ((.inr 0))) (hl y u ((.inr 1))) (hl y u ((.inr 2))) (hl y u ((.inr 3))) (raw_line6 y
        u) (by simpa only [zero_mul, add_zero] using hp.2.2.2.2.2.2.1) (raw_line7 y u) (by simpa
        only [zero_mul, add_zero] using hp.2.2.2.2.2.2.2.1) (raw_line9 y u) (by simpa only
        [zero_mul, add_zero] using hp.2.2.2.2.2.2.2.2.2.1) (raw_line10 y u) (by simpa only
        [zero_mul, add_zero] using hp.2.2.2.2.2.2.2.2.2.2)
    try simp only [zero_mul, add_zero] at h
    refine h.congr_deriv ?_
    rw [sum_var]; simp only [Fin.sum_univ_five, Fin.sum_univ_four]; rfl

lemma gr_d2gdsdp_3 (y : Var 5 4 → ℝ) (hy : Dom y) :
    Gr (fun y => (tables (raw y) y).d2gdsdp 3) y ((tables (raw y) y).at3 (.inr 3) (.inl iP)) := by
  refine Gr.of_lines ?_ fun u => ?_
  · have hp := pos y hy
    change DifferentiableAt ℝ (fun y => D2GDS3DP (y (.inl (.inl 0))) (y (.inl (.inl 1))) (y (.inl (.inl 2))) (y (.inl (.inl 3))) (y (.inl (.inl 4))) (y (.inr 0)) (y (.inr 1)) (y (.inr 2)) (y (.inr 3))) y
    try simp only [D2GDS3DP, zero_mul, mul_zero, add_zero, zero_add, sub_zero]
    ddq
  · have hp := pos y hy
    have h := c_D2GDS3DP (hl y u ((.inl iT))) (hl y u ((.inl iP))) (hl y u ((.inl (.inl 0)))) (hl y u ((.inl (.inl
        1)))) (hl y u ((.inl (.inl 2)))) (hl y u ((.inl (.inl 3)))) (hl y u ((.inl (.inl 4)))) (hl
        y u ((.inr 0))) (hl y u ((.inr 1))) (hl y u ((.inr 2))) (hl y u ((.inr 3)))
    try simp only [zero_mul, add_zero] at h
    refine h.congr_deriv ?_
    rw [sum_var]; simp only [Fin.sum_univ_five, Fin.sum_univ_four]; rfl

lemma gr_d2gdt2 (y : Var 5 4 → ℝ) (hy : Dom y) :
    Gr (fun y => (tables (raw y) y).d2gdt2) y ((tables (raw y) y).at3 (.inl iT) (.inl iT)) := by
  refine Gr.of_lines ?_ fun u => ?_
  · have hp := pos y hy
    change DifferentiableAt ℝ (fun y => D2GDT2) y
    try simp only [D2GDT2, zero_mul, mul_zero, add_zero, zero_add, sub_zero]
    ddq
  · have hp := pos y hy
    have h := c_D2GDT2 (hl y u ((.inl iT))) (hl y u ((.inl iP))) (hl y u ((.inl (.inl 0)))) (hl y u ((.inl (.inl
        1)))) (hl y u ((.inl (.inl 2)))) (hl y u ((.inl (.inl 3)))) (hl y u ((.inl (.inl 4)))) (hl
        y u ((.inr 0))) (hl y u ((.inr 1))) (hl y u ((.inr 2))) (hl y u ((.inr 3)))
    try simp only [zero_mul, add_zero] at h
    refine h.congr_deriv ?_
    rw [sum_var]; simp only [Fin.sum_univ_five, Fin.sum_univ_four]; rfl

lemma gr_d2gdtdp (y : Var 5 4 → ℝ) (hy : Dom y) :
    Gr (fun y => (tables (raw y) y).d2gdtdp) y ((tables (raw y) y).at3 (.inl iT) (.inl iP)) := by
  refine Gr.of_lines ?_ fun u => ?_
  · have hp := pos y hy
    change DifferentiableAt ℝ (fun y => D2GDTDP) y
    try simp only [D2GDTDP, zero_mul, mul_zero, add_zero, zero_add, sub_zero]
    ddq
  · have hp := pos y hy
    have h := c_D2GDTDP (hl y u ((.inl iT))) (hl y u ((.inl iP))) (hl y u ((.inl (.inl 0)))) (hl y u ((.inl (.inl
        1)))) (hl y u ((.inl (.inl 2)))) (hl y u ((.inl (.inl 3)))) (hl y u ((.inl (.inl 4)))) (hl
        y u ((.inr 0))) (hl y u ((.inr 1))) (hl y u ((.inr 2))) (hl y u ((.inr 3)))
    try simp only [zero_mul, add_zero] at h
    refine h.congr_deriv ?_
    rw [sum_var]; simp only [Fin.sum_univ_five, Fin.sum_univ_four]; rfl

lemma gr_d2gdp2 (y : Var 5 4 → ℝ) (hy : Dom y) :
    Gr (fun y => (tables (raw y) y).d2gdp2) y ((tables (raw y) y).at3 (.inl iP) (.inl iP)) := by
  refine Gr.of_lines ?_ fun u => ?_
  · have hp := pos y hy
    change DifferentiableAt ℝ (fun y => D2GDP2) y
    try simp only [D2GDP2, zero_mul, mul_zero, add_zero, zero_add, sub_zero]
    ddq
  · have hp := pos y hy
    have h := c_D2GDP2 (hl y u ((.inl iT))) (hl y u ((.inl iP))) (hl y u ((.inl (.inl 0)))) (hl y u ((.inl (.inl
        1)))) (hl y u ((.inl (.inl 2)))) (hl y u ((.inl (.inl 3)))) (hl y u ((.inl (.inl 4)))) (hl
        y u ((.inr 0))) (hl y u ((.inr 1))) (hl y u ((.inr 2))) (hl y u ((.inr 3)))
    try simp only [zero_mul, add_zero] at h
    refine h.congr_deriv ?_
    rw [sum_var]; simp only [Fin.sum_univ_five, Fin.sum_univ_four]; rfl

lemma symm (x : Fin 11 → ℝ) (y : Var 5 4 → ℝ) : (tables x y).Symm := by
  constructor
  · intro i j; fin_cases i <;> fin_cases j <;> rfl
  · intro i j; fin_cases i <;> fin_cases j <;> rfl
  · intro i j k; fin_cases i <;> fin_cases j <;> fin_cases k <;> exact ⟨rfl, rfl⟩
  · intro i j k; fin_cases i <;> fin_cases j <;> fin_cases k <;> rfl
  · intro i j; fin_cases i <;> fin_cases j <;> rfl
  · intro i j; fin_cases i <;> fin_cases j <;> rfl
  · intro i j k; fin_cases i <;> fin_cases j <;> fin_cases k <;> rfl
  · intro i j k; fin_cases i <;> fin_cases j <;> fin_cases k <;> exact ⟨rfl, rfl⟩
  · intro i j; fin_cases i <;> fin_cases j <;> rfl
  · intro i j; fin_cases i <;> fin_cases j <;> rfl

lemma ok_raw : (jets fun y => tables (raw y) y).Ok Dom := by
  refine jets_ok (fun y _ => symm (raw y) y) gr_g ?_ gr_dgdt gr_dgdp ?_ ?_ ?_ ?_ ?_ ?_ ?_ ?_ gr_d2gdt2 gr_d2gdtdp gr_d2gdp2
  · intro y hy i
    fin_cases i
    · exact gr_dgdr_0 y hy
    · exact gr_dgdr_1 y hy
    · exact gr_dgdr_2 y hy
    · exact gr_dgdr_3 y hy
    · exact gr_dgdr_4 y hy
  · intro y hy i
    fin_cases i
    · exact gr_dgds_0 y hy
    · exact gr_dgds_1 y hy
    · exact gr_dgds_2 y hy
    · exact gr_dgds_3 y hy
  · intro y hy i j
    fin_cases i <;> fin_cases j
    · exact gr_d2gdr2_0_0 y hy
    · exact gr_d2gdr2_0_1 y hy
    · exact gr_d2gdr2_0_2 y hy
    · exact gr_d2gdr2_0_3 y hy
    · exact gr_d2gdr2_0_4 y hy
    · exact (gr_d2gdr2_0_1 y hy).congr_d (funext fun k => ((symm (raw y) y).at3 _ _ k).1)
    · exact gr_d2gdr2_1_1 y hy
    · exact gr_d2gdr2_1_2 y hy
    · exact gr_d2gdr2_1_3 y hy
    · exact gr_d2gdr2_1_4 y hy
    · exact (gr_d2gdr2_0_2 y hy).congr_d (funext fun k => ((symm (raw y) y).at3 _ _ k).1)
    · exact (gr_d2gdr2_1_2 y hy).congr_d (funext fun k => ((symm (raw y) y).at3 _ _ k).1)
    · exact gr_d2gdr2_2_2 y hy
    · exact gr_d2gdr2_2_3 y hy
    · exact gr_d2gdr2_2_4 y hy
    · exact (gr_d2gdr2_0_3 y hy).congr_d (funext fun k => ((symm (raw y) y).at3 _ _ k).1)
    · exact (gr_d2gdr2_1_3 y hy).congr_d (funext fun k => ((symm (raw y) y).at3 _ _ k).1)
    · exact (gr_d2gdr2_2_3 y hy).congr_d (funext fun k => ((symm (raw y) y).at3 _ _ k).1)
    · exact gr_d2gdr2_3_3 y hy
    · exact gr_d2gdr2_3_4 y hy
    · exact (gr_d2gdr2_0_4 y hy).congr_d (funext fun k => ((symm (raw y) y).at3 _ _ k).1)
    · exact (gr_d2gdr2_1_4 y hy).congr_d (funext fun k => ((symm (raw y) y).at3 _ _ k).1)
    · exact (gr_d2gdr2_2_4 y hy).congr_d (funext fun k => ((symm (raw y) y).at3 _ _ k).1)
    · exact (gr_d2gdr2_3_4 y hy).congr_d (funext fun k => ((symm (raw y) y).at3 _ _ k).1)
    · exact gr_d2gdr2_4_4 y hy
  · intro y hy i j
    fin_cases i <;> fin_cases j
    · exact gr_d2gdrds_0_0 y hy
    · exact gr_d2gdrds_0_1 y hy
    · exact gr_d2gdrds_0_2 y hy
    · exact gr_d2gdrds_0_3 y hy
    · exact gr_d2gdrds_1_0 y hy
    · exact gr_d2gdrds_1_1 y hy
    · exact gr_d2gdrds_1_2 y hy
    · exact gr_d2gdrds_1_3 y hy
    · exact gr_d2gdrds_2_0 y hy
    · exact gr_d2gdrds_2_1 y hy
    · exact gr_d2gdrds_2_2 y hy
    · exact gr_d2gdrds_2_3 y hy
    · exact gr_d2gdrds_3_0 y hy
    · exact gr_d2gdrds_3_1 y hy
    · exact gr_d2gdrds_3_2 y hy
    · exact gr_d2gdrds_3_3 y hy
    · exact gr_d2gdrds_4_0 y hy
    · exact gr_d2gdrds_4_1 y hy
    · exact gr_d2gdrds_4_2 y hy
    · exact gr_d2gdrds_4_3 y hy
  · intro y hy i
    fin_cases i
    · exact gr_d2gdrdt_0 y hy
    · exact gr_d2gdrdt_1 y hy
    · exact gr_d2gdrdt_2 y hy
    · exact gr_d2gdrdt_3 y hy
    · exact gr_d2gdrdt_4 y hy
  · intro y hy i
    fin_cases i
    · exact gr_d2gdrdp_0 y hy
    · exact gr_d2gdrdp_1 y hy
    · exact gr_d2gdrdp_2 y hy
    · exact gr_d2gdrdp_3 y hy
    · exact gr_d2gdrdp_4 y hy
  · intro y hy i j
    fin_cases i <;> fin_cases j
    · exact gr_d2gds2_0_0 y hy
    · exact gr_d2gds2_0_1 y hy
    · exact gr_d2gds2_0_2 y hy
    · exact gr_d2gds2_0_3 y hy
    · exact (gr_d2gds2_0_1 y hy).congr_d (funext fun k => ((symm (raw y) y).at3 _ _ k).1)
    · exact gr_d2gds2_1_1 y hy
    · exact gr_d2gds2_1_2 y hy
    · exact gr_d2gds2_1_3 y hy
    · exact (gr_d2gds2_0_2 y hy).congr_d (funext fun k => ((symm (raw y) y).at3 _ _ k).1)
    · exact (gr_d2gds2_1_2 y hy).congr_d (funext fun k => ((symm (raw y) y).at3 _ _ k).1)
    · exact gr_d2gds2_2_2 y hy
    · exact gr_d2gds2_2_3 y hy
    · exact (gr_d2gds2_0_3 y hy).congr_d (funext fun k => ((symm (raw y) y).at3 _ _ k).1)
    · exact (gr_d2gds2_1_3 y hy).congr_d (funext fun k => ((symm (raw y) y).at3 _ _ k).1)
    · exact (gr_d2gds2_2_3 y hy).congr_d (funext fun k => ((symm (raw y) y).at3 _ _ k).1)
    · exact gr_d2gds2_3_3 y hy
  · intro y hy i
    fin_cases i
    · exact gr_d2gdsdt_0 y hy
    · exact gr_d2gdsdt_1 y hy
    · exact gr_d2gdsdt_2 y hy
    · exact gr_d2gdsdt_3 y hy
  · intro y hy i
    fin_cases i
    · exact gr_d2gdsdp_0 y hy
    · exact gr_d2gdsdp_1 y hy
    · exact gr_d2gdsdp_2 y hy
    · exact gr_d2gdsdp_3 y hy

lemma site_eq (y : Var 5 4 → ℝ) (hy : Dom y) : site y = raw y := by
  obtain ⟨h0, h1, h2, h3, h4, h5, h6, h7, h8, h9, h10⟩ := hy
  funext k; fin_cases k
  · exact keepAbove_eq h0
  · exact keepAbove_eq h1
  · exact keepAbove_eq h2
  · exact keepAbove_eq h3
  · exact keepAbove_eq h4
  · exact keepAbove_eq h5
  · exact keepAbove_eq h6
  · exact keepAbove_eq h7
  · exact keepAbove_eq h8
  · exact keepAbove_eq h9
  · exact keepAbove_eq h10

lemma dom_open : IsOpen {y | Dom y} := by
  have hc : ∀ k, Continuous fun y => raw y k := fun k =>
    continuous_iff_continuousAt.2 fun y => (raw_diff k y).continuousAt
  exact (isOpen_lt continuous_const (hc 0)).inter ((isOpen_lt continuous_const (hc 1)).inter ((isOpen_lt
    continuous_const (hc 2)).inter ((isOpen_lt continuous_const (hc 3)).inter ((isOpen_lt continuous_const (hc
    4)).inter ((isOpen_lt continuous_const (hc 5)).inter ((isOpen_lt continuous_const (hc 6)).inter ((isOpen_lt
    continuous_const (hc 7)).inter ((isOpen_lt continuous_const (hc 8)).inter ((isOpen_lt continuous_const (hc
    9)).inter (isOpen_lt continuous_const (hc 10)))))))))))

/-- The arrays of olivine.c are the derivatives of its Gibbs energy to third order. -/
theorem ok : (jets macros).Ok Dom :=
  ok_congr dom_open (fun y hy => by unfold macros; rw [site_eq y hy]) ok_raw

lemma entropy_eq (y : Var 5 4 → ℝ) : (jets macros).g1 y (.inl iT) = -(macros y).s := by
  change DGDT (site y 0) (site y 1) (site y 2) (site y 3) (site y 4) (site y 5) (site y 6) (site y 7) (site y 8) (site y 9) (site y 10) = -(S (site y 0) (site y 1) (site y 2) (site y 3) (site y 4) (site y 5) (site y 6) (site y 7) (site y 8) (site y 9) (site y 10))
  simp only [DGDT]

end Olivine

end

end Verif.Thermo.Ordering
