import Verif.Grammar.Kinds
/-!
# Tables for neighbouring tokens (generated by tools/gen_edges.py)
-/
namespace Verif.Format
open Verif.Grammar

/-- The nodes that can be empty. -/
def nullNodes : List Kind := [186, 191, 192, 193, 201, 247, 250, 256, 258, 291, 298]

/-- The nodes of queries. -/
def queryNodes : Nat := 35835915324160709670559445870723949346621713951347277790467133266261277234055986351793999403970820308992

/-- What a node can begin with, as a set of kinds. -/
def firstTree : KTree Nat :=
  .br 263 (.br 223 (.br 203 (.br 193 (.br 188 (.br 186 (.br 185 (.leaf 184 45671926166590716193865151022383844364254216528) (.leaf 185 45671926166590716193865151022383844364254216528)) (.br 187 (.leaf 186 45671926166590716193865151022383844364247892048) (.leaf 187 256))) (.br 190 (.br 189 (.leaf 188 32768) (.leaf 189 2097152)) (.br 191 (.leaf 190 4194304) (.br 192 (.leaf 191 8589934592) (.leaf 192 45671926166590716193865151022388272956566405200))))) (.br 198 (.br 195 (.br 194 (.leaf 193 45671926166590716193865151022388272956566405200) (.leaf 194 16)) (.br 196 (.leaf 195 64) (.br 197 (.leaf 196 45671926166590716193865151022383844364247891968) (.leaf 197 574685827824708321884380135181365943857027170818850816)))) (.br 200 (.br 199 (.leaf 198 256) (.leaf 199 8388608)) (.br 201 (.leaf 200 196608) (.br 202 (.leaf 201 6878658560) (.leaf 202 256)))))) (.br 213 (.br 208 (.br 205 (.br 204 (.leaf 203 226673591177742970257408) (.leaf 204 6129935326903271594653931295246828973213011273555380384)) (.br 206 (.leaf 205 131072) (.br 207 (.leaf 206 24519835117749432555946787399040126175881537809106864288) (.leaf 207 3064991081731777716716694054300845040828655987337461920)))) (.br 210 (.br 209 (.leaf 208 3064991081731777716716694054300618367237478244367204512) (.leaf 209 16777216)) (.br 211 (.leaf 210 3064991081731777716716694054300618367237478244367204512) (.br 212 (.leaf 211 3064991081731777716716694054300618367237478244367204512) (.leaf 212 131072))))) (.br 218 (.br 215 (.br 214 (.leaf 213 33554432) (.leaf 214 134217728)) (.br 216 (.leaf 215 268435456) (.br 217 (.leaf 216 6442450944) (.leaf 217 3065037781276283055724002266562484956884955132017510560)))) (.br 220 (.br 219 (.leaf 218 46699544505339007308212261639916056299144680046592) (.leaf 219 3064991081731777716716694054300618367237478244367204512)) (.br 221 (.leaf 220 3065037781276283055724002266562258283293777389047253152) (.br 222 (.leaf 221 3065037781276283055724002266562258283293777389047253152) (.leaf 222 3065037781276283055724002266562484956884955133628123296))))))) (.br 243 (.br 233 (.br 228 (.br 225 (.br 224 (.leaf 223 2048) (.leaf 224 2147483648)) (.br 226 (.leaf 225 4294967296) (.br 227 (.leaf 226 226675897020752183953408) (.leaf 227 4428592318513152)))) (.br 230 (.br 229 (.leaf 228 34359738368) (.leaf 229 274877906944)) (.br 231 (.leaf 230 549755813888) (.br 232 (.leaf 231 2199023255552) (.leaf 232 8796093022208))))) (.br 238 (.br 235 (.br 234 (.leaf 233 17592186044416) (.leaf 234 1099511627776)) (.br 236 (.leaf 235 140737488355328) (.br 237 (.leaf 236 281474976710656) (.leaf 237 562949953421312)))) (.br 240 (.br 239 (.leaf 238 3412884092616704) (.leaf 239 18014398509481984)) (.br 241 (.leaf 240 63050394799964160) (.br 242 (.leaf 241 3064991081731777716716694054300618367264499842131427488) (.leaf 242 131072)))))) (.br 253 (.br 248 (.br 245 (.br 244 (.leaf 243 131072) (.leaf 244 1125899906842624)) (.br 246 (.leaf 245 35184372088832) (.br 247 (.leaf 246 4503599627370496) (.leaf 247 24519835117749432555946787399040126175899552207616346272)))) (.br 250 (.br 249 (.leaf 248 18014398509481984) (.leaf 249 24519835117749432555946787399040126175881537809106864288)) (.br 251 (.leaf 250 24519835117749432555946787399040126224034025033542273184) (.br 252 (.leaf 251 24519835117749432555946787399040126175881537809106864288) (.leaf 252 154742504910672534362390528))))) (.br 258 (.br 255 (.br 254 (.leaf 253 154742504910672534362390528) (.leaf 254 144115188075855872)) (.br 256 (.leaf 255 21454937572122444017016858380104555244253525453540688032) (.br 257 (.leaf 256 144115188076380160) (.leaf 257 524288)))) (.br 260 (.br 259 (.leaf 258 144115188076380160) (.leaf 259 524288)) (.br 261 (.leaf 260 48152487224435408896) (.br 262 (.leaf 261 24519835117749432555946787399040126175881537809106864288) (.leaf 262 131072)))))))) (.br 302 (.br 282 (.br 272 (.br 267 (.br 265 (.br 264 (.leaf 263 288230376151711744) (.leaf 264 9223372036854775808)) (.br 266 (.leaf 265 18014398509481984) (.leaf 266 576460752303423488))) (.br 269 (.br 268 (.leaf 267 36893488147419103232) (.leaf 268 1152921504606846976)) (.br 270 (.leaf 269 8589934592) (.br 271 (.leaf 270 226673591177742970257408) (.leaf 271 2305843009213696000))))) (.br 277 (.br 274 (.br 273 (.leaf 272 6129888627358766255646623073081427906794729596203827360) (.leaf 273 2873429139123541609421900675906829719285135854094254080)) (.br 275 (.leaf 274 47796949547269849036933308769153319874827617885487104) (.br 276 (.leaf 275 143671456956177080471095033795341485964256792704712704) (.leaf 276 2305843009213696000)))) (.br 279 (.br 278 (.leaf 277 2305843009213696000) (.leaf 278 24519835117749432555946787399040126175881537809106864288)) (.br 280 (.leaf 279 24519835117749432555946787398885364781504933796163616928) (.br 281 (.leaf 280 154742504910672534362390528) (.leaf 281 24519835117749432555946787399040107284109763321312313504)))))) (.br 292 (.br 287 (.br 284 (.br 283 (.leaf 282 24519835117749432555946787399040107284109763321312313504) (.leaf 283 309485009821345068724781056)) (.br 285 (.leaf 284 24519835117749432555946787398885364779199090786949922976) (.br 286 (.leaf 285 24519835117749432555946787398885364779199090786949922976) (.leaf 286 309485009821345068724781056)))) (.br 289 (.br 288 (.leaf 287 3064991081731777716716694054300618367237478244367204512) (.leaf 288 6129888627358766255646623073081427902183043577776439456)) (.br 290 (.leaf 289 3064991081731777716716694054300845188402608577013874848) (.br 291 (.leaf 290 18889465931478580856832) (.leaf 291 3064991081731777716716694054300845188402608577013874848))))) (.br 297 (.br 294 (.br 293 (.leaf 292 3064991081731777716716694054300845188402608577013874848) (.leaf 293 24519835117749432555946787399040126175881537809106864288)) (.br 295 (.leaf 294 24519835117749432555946787399040126175881537809106864288) (.br 296 (.leaf 295 24519835117749432555946787399040126175881537809106864288) (.leaf 296 3064991081731777716716694054300855813727195033715607712)))) (.br 299 (.br 298 (.leaf 297 18889465931478580856832) (.leaf 298 3064991081731777716716694054300855813727195033715607712)) (.br 300 (.leaf 299 3064991081731777716716694054300629140136017290745350304) (.br 301 (.leaf 300 226673591177742970257408) (.leaf 301 24519835117749432555946787399040126175881537809106864288))))))) (.br 324 (.br 312 (.br 307 (.br 304 (.br 303 (.leaf 302 3064991081731777716716694054300629140136017290745350304) (.leaf 303 24519835117749432555946787399040126175881537809106864288)) (.br 305 (.leaf 304 24519835117749432555946787399040126175881537809106864288) (.br 306 (.leaf 305 3064991081731777716716694054300629140136017290745350304) (.leaf 306 3064991081731777716716694054300629140136017290745350304)))) (.br 309 (.br 308 (.leaf 307 3064991081731777716716694054300629140136017290745350304) (.leaf 308 3064991081731777716716694054300627959544396573334046880)) (.br 310 (.leaf 309 3064991081731777716716694054300627959544396573334046880) (.br 311 (.leaf 310 7083549724304467836928) (.leaf 311 3064991081731777716716694054300619695403051551454922912))))) (.br 319 (.br 315 (.br 314 (.leaf 312 3064991081731777716716694054300619695403051551454920864) (.leaf 314 2048)) (.br 316 (.leaf 315 18889465931478580854784) (.br 317 (.leaf 316 2048) (.leaf 317 18889465931478580854784)))) (.br 321 (.br 320 (.leaf 319 18389946490390666300300164325803710203424869466203226112) (.leaf 320 6129935326903271594653931295246828973213011273555380384)) (.br 322 (.leaf 321 6129935326903271594653931295246828973213011273555380384) (.br 323 (.leaf 322 6129935326903271594653931295246828973213011273555380384) (.leaf 323 6129935326903271594653931295246828973213011273555380384)))))) (.br 334 (.br 329 (.br 326 (.br 325 (.leaf 324 6129935326903271594653931295246828973213011273555380384) (.leaf 325 6129935326903271594653931295246828973213011273555380384)) (.br 327 (.leaf 326 6129935326903271594653931295246828973213011273555380384) (.br 328 (.leaf 327 5238021868193956058842006440455158342446862234025984) (.leaf 328 41904174945551648470736051523641266739574897872207872)))) (.br 331 (.br 330 (.leaf 329 6129935326903271594653931295246828973213011273555380384) (.leaf 330 6129935326903271594653931285343294491830520465426745504)) (.br 332 (.leaf 331 309485009821345068724781056) (.br 333 (.leaf 332 3064991081731777716716694054300845040828655987337461920) (.leaf 333 6129888627358766255646623073081654575774221320746696864))))) (.br 339 (.br 336 (.br 335 (.leaf 334 3064991081731777716716694054300618367237478244367204512) (.leaf 335 22657557121707113111800289765010735290076102656)) (.br 337 (.leaf 336 22300745198530623141535718272648361505980416) (.br 338 (.leaf 337 44601490397061246283071436545296723011960832) (.leaf 338 11150372599265311570767859136324180752990208)))) (.br 341 (.br 340 (.leaf 339 89202980794122492566142873090593446023921664) (.leaf 340 4951760157141521099596496896)) (.br 342 (.leaf 341 2873429139123541609421900675906829719285135854094254080) (.br 343 (.leaf 342 654752733524244507355250805056894792805857779253248) (.leaf 343 3064991081731777716716694054300618367237478244367204480))))))))

/-- What may be written directly behind a node. -/
def behindTree : KTree Nat :=
  .br 263 (.br 223 (.br 203 (.br 193 (.br 188 (.br 186 (.br 185 (.leaf 184 15133440234103047065182059412784141161373124360088217644) (.leaf 185 15133440234103047065182059412784141161373124360088217644)) (.br 187 (.leaf 186 21646499514730680124311651758498117218614690100843380732) (.leaf 187 15133440234103047065182059412784141161373124360088217644))) (.br 190 (.br 189 (.leaf 188 15133440234103047065182059412784141161373124360088217644) (.leaf 189 15133440234103047065182059412784141161373124360088217644)) (.br 191 (.leaf 190 15133440234103047065182059412784141161373124360088217644) (.br 192 (.leaf 191 24519928653854221733733552434404946937899825954937634812) (.leaf 192 12265249116847699411819000744033455408008778709299259436))))) (.br 198 (.br 195 (.br 194 (.leaf 193 12265249116847699411819000744033455408008778709299259436) (.leaf 194 24519928653854221733733552434404946937899825954937634812)) (.br 196 (.leaf 195 24519928653854221733733552434404946937899825954937634812) (.br 197 (.leaf 196 21646499514730680124311651758498117218614690100843380732) (.leaf 197 21646499514730680124311651758498117218614690100843380732)))) (.br 200 (.br 199 (.leaf 198 15180582430916792669711637480651762623176728783070586924) (.leaf 199 15138678255971241021240901419940285127293914563393513516)) (.br 201 (.leaf 200 24519928653854221733733552434404946937899825954937634812) (.br 202 (.leaf 201 15133440234103047065182059412784141161373124360088217644) (.leaf 202 15133440234103047065182059412784141161373124360088217644)))))) (.br 213 (.br 208 (.br 205 (.br 204 (.leaf 203 15180582430916792669711637481367446708388589254496643116) (.leaf 204 12260011094979505455760158736877311442087988505993963564)) (.br 206 (.leaf 205 24519928653854221733733552434404946937899825954937634812) (.br 207 (.leaf 206 12260011094979505455760158736877311442087988505993963564) (.leaf 207 15138678255971241021240901419940285127293914563393513516)))) (.br 210 (.br 209 (.leaf 208 15138678255971241021240901419940285127293914563393513516) (.leaf 209 15138678255971241021240901419940285127293914563393513516)) (.br 211 (.leaf 210 15138678255971241021240901419940285127293914563393513516) (.br 212 (.leaf 211 15138678255971241021240901419940285127293914563393513516) (.leaf 212 24519928653854221733733552434404946937899825954937634812))))) (.br 218 (.br 215 (.br 214 (.leaf 213 15180582430916792669711637480651762623176728783070586924) (.leaf 214 24519928653854221733733552433689262852687965483511578620)) (.br 216 (.leaf 215 15180582430916792669711637480651762623176728783070586924) (.br 217 (.leaf 216 15133440234103047065182059413499825246584984831514273836) (.leaf 217 15180582430916792669711637480651762623176728783070586924)))) (.br 220 (.br 219 (.leaf 218 24519928653854221733733552433689262852687965483511578620) (.leaf 219 24519928653854221733733552433689262852687965483511578620)) (.br 221 (.leaf 220 24519928653854221733733552433689262852687965483511578620) (.br 222 (.leaf 221 24519928653854221733733552433689262852687965483511578620) (.leaf 222 15180582430916792669711637480651762623176728783070586924))))))) (.br 243 (.br 233 (.br 228 (.br 225 (.br 224 (.leaf 223 24519928653854221733733552433689262852687965483511578620) (.leaf 224 15133440234103047065182059413499825246584984831514273836)) (.br 226 (.leaf 225 15133440234103047065182059413499825246584984831514273836) (.br 227 (.leaf 226 24519928653854221733733552434404946937899825954937634812) (.leaf 227 15138678255971241021240901419940285127293914563393513516)))) (.br 230 (.br 229 (.leaf 228 15138678255971241021240901419940285127293914563393513516) (.leaf 229 15138678255971241021240901419940285127293914563393513516)) (.br 231 (.leaf 230 15138678255971241021240901419940285127293914563393513516) (.br 232 (.leaf 231 15138678255971241021240901419940285127293914563393513516) (.leaf 232 15138678255971241021240901419940285127293914563393513516))))) (.br 238 (.br 235 (.br 234 (.leaf 233 15138678255971241021240901419940285127293914563393513516) (.leaf 234 15138678255971241021240901419940285127293914563393513516)) (.br 236 (.leaf 235 24519928653854221733733552434404946937899825954937634812) (.br 237 (.leaf 236 24519928653854221733733552434404946937899825954937634812) (.leaf 237 24519928653854221733733552434404946937899825954937634812)))) (.br 240 (.br 239 (.leaf 238 24519928653854221733733552434404946937899825954937634812) (.leaf 239 15138678255971241021240901419940285127293914563393513516)) (.br 241 (.leaf 240 15138678255971241021240901419940285127293914563393513516) (.br 242 (.leaf 241 15138678255971241021240901419940285127293914563393513516) (.leaf 242 24519928653854221733733552434404946937899825954937634812)))))) (.br 253 (.br 248 (.br 245 (.br 244 (.leaf 243 24519928653854221733733552434404946937899825954937634812) (.leaf 244 24519928653854221733733552434404946937899825954937634812)) (.br 246 (.leaf 245 24519928653854221733733552434404946937899825954937634812) (.br 247 (.leaf 246 15138678255971241021240901419940285127293914563393513516) (.leaf 247 12260011094979505455760158736877311442087988505993963564)))) (.br 250 (.br 249 (.leaf 248 24519928653854221733733552434404946937899825954937634812) (.leaf 249 12260011094979505455760158736877311442087988505993963564)) (.br 251 (.leaf 250 12260011094979505455760158736877311442087988505993963564) (.br 252 (.leaf 251 12260011094979505455760158736877311442087988505993963564) (.leaf 252 12260011094979505455760158736877311442087988505993963564))))) (.br 258 (.br 255 (.br 254 (.leaf 253 12260011094979505455760158736877311442087988505993963564) (.leaf 254 15138678255971241021240901419940285127293914563393513516)) (.br 256 (.leaf 255 15138678255971241021240901419940285127293914563393513516) (.br 257 (.leaf 256 15138678255971241021240901419940285127293914563393513516) (.leaf 257 24519928653854221733733552434404946937899825954937634812)))) (.br 260 (.br 259 (.leaf 258 15138678255971241021240901419940285127293914563393513516) (.leaf 259 24519928653854221733733552434404946937899825954937634812)) (.br 261 (.leaf 260 24519928653854221733733552433689262852687965483511578620) (.br 262 (.leaf 261 12260011094979505455760158736877311442087988505993963564) (.leaf 262 24519928653854221733733552434404946937899825954937634812)))))))) (.br 302 (.br 282 (.br 272 (.br 267 (.br 265 (.br 264 (.leaf 263 24519928653854221733733552434404946937899825954937634812) (.leaf 264 24519928653854221733733552434404946937899825954937634812)) (.br 266 (.leaf 265 24519928653854221733733552434404946937899825954937634812) (.leaf 266 24519928653854221733733552434404946937899825954937634812))) (.br 269 (.br 268 (.leaf 267 24519928653854221733733552433689262852687965483511578620) (.leaf 268 24519928653854221733733552433689262852687965483511578620)) (.br 270 (.leaf 269 24519928653854221733733552434404946937899825954937634812) (.br 271 (.leaf 270 24519928653854221733733552434404946937899825954937634812) (.leaf 271 24519928653854221733733552434404946937899825954937634812))))) (.br 277 (.br 274 (.br 273 (.leaf 272 12260011094979505455760158737592995527299848977420019756) (.leaf 273 12265249116847699411819000744033455408008778709299259436)) (.br 275 (.leaf 274 15133440234103047065182059413499825246584984831514273836) (.br 276 (.leaf 275 15138678255971241021240901419940285127293914563393513516) (.leaf 276 24519928653854221733733552433689262852687965483511578620)))) (.br 279 (.br 278 (.leaf 277 24519928653854221733733552433689262852687965483511578620) (.leaf 278 12260011094979505455760158736877311442087988505993963564)) (.br 280 (.leaf 279 12260011094979505455760158737592995527299848977420019756) (.br 281 (.leaf 280 24519928653854221733733552434404946937899825954937634812) (.leaf 281 12260011094979505455760158737592995527299848977420019756)))))) (.br 292 (.br 287 (.br 284 (.br 283 (.leaf 282 12260011094979505455760158737592995527299848977420019756) (.leaf 283 24519928653854221733733552434404946937899825954937634812)) (.br 285 (.leaf 284 12260011094979505455760158737592995527299848977420019756) (.br 286 (.leaf 285 12260011094979505455760158737592995527299848977420019756) (.leaf 286 24519928653854221733733552434404946937899825954937634812)))) (.br 289 (.br 288 (.leaf 287 15138678255971241021240901419940285127293914563393513516) (.leaf 288 12260011094979505455760158737592995527299848977420019756)) (.br 290 (.leaf 289 12260011094979505455760158736877311442087988505993963564) (.br 291 (.leaf 290 24519928653854221733733552433689262852687965483511578620) (.leaf 291 12260011094979505455760158736877311442087988505993963564))))) (.br 297 (.br 294 (.br 293 (.leaf 292 15138678255971241021240901419940285127293914563393513516) (.leaf 293 12260011094979505455760158736877311442087988505993963564)) (.br 295 (.leaf 294 12260011094979505455760158736877311442087988505993963564) (.br 296 (.leaf 295 12260011094979505455760158736877311442087988505993963564) (.leaf 296 12260011094979505455760158736877311442087988505993963564)))) (.br 299 (.br 298 (.leaf 297 24519928653854221733733552433689262852687965483511578620) (.leaf 298 12260011094979505455760158736877311442087988505993963564)) (.br 300 (.leaf 299 15138678255971241021240901419224601042082054091967457324) (.br 301 (.leaf 300 15180582430916792669711637481367446708388589254496643116) (.leaf 301 12260011094979505455760158736877311442087988505993963564))))))) (.br 324 (.br 312 (.br 307 (.br 304 (.br 303 (.leaf 302 15138678255971241021240901419224601042082054091967457324) (.leaf 303 12260011094979505455760158736877311442087988505993963564)) (.br 305 (.leaf 304 12260011094979505455760158736877311442087988505993963564) (.br 306 (.leaf 305 15138678255971241021240901419224601042082054091967457324) (.leaf 306 15138678255971241021240901419224601042082054091967457324)))) (.br 309 (.br 308 (.leaf 307 15138678255971241021240901419224601042082054091967457324) (.leaf 308 15138678255971241021240901419224601042082054091967457324)) (.br 310 (.leaf 309 15138678255971241021240901419224601042082054091967457324) (.br 311 (.leaf 310 15180582430916792669711637481367446708316531660458715180) (.leaf 311 15138678255971241021240901419224601042082054091967457324))))) (.br 319 (.br 315 (.br 314 (.leaf 312 15138678255971241021240901419940285127293914563393513516) (.leaf 314 24519928653854221733733552433689262852687965483511578620)) (.br 316 (.leaf 315 24519928653854221733733552434404946937899825954937634812) (.br 317 (.leaf 316 24519928653854221733733552433689262852687965483511578620) (.leaf 317 24519928653854221733733552434404946937899825954937634812)))) (.br 321 (.br 320 (.leaf 319 15138678255971241021240901419940285127293914563393513516) (.leaf 320 12260011094979505455760158736877311442087988505993963564)) (.br 322 (.leaf 321 12260011094979505455760158736877311442087988505993963564) (.br 323 (.leaf 322 12260011094979505455760158736877311442087988505993963564) (.leaf 323 12260011094979505455760158736877311442087988505993963564)))))) (.br 334 (.br 329 (.br 326 (.br 325 (.leaf 324 12260011094979505455760158736877311442087988505993963564) (.leaf 325 12260011094979505455760158736877311442087988505993963564)) (.br 327 (.leaf 326 12260011094979505455760158736877311442087988505993963564) (.br 328 (.leaf 327 15133440234103047065182059413499825246584984831514273836) (.leaf 328 15133440234103047065182059413499825246584984831514273836)))) (.br 331 (.br 330 (.leaf 329 12260011094979505455760158736877311442087988505993963564) (.leaf 330 12260011094979505455760158736877311442087988505993963564)) (.br 332 (.leaf 331 24519928653854221733733552434404946937899825954937634812) (.br 333 (.leaf 332 15138678255971241021240901419940285127293914563393513516) (.leaf 333 12260011094979505455760158737592995527299848977420019756))))) (.br 339 (.br 336 (.br 335 (.leaf 334 15138678255971241021240901419224601042082054091967457324) (.leaf 335 24519928653854221733733552433689262852687965483511578620)) (.br 337 (.leaf 336 24519928653854221733733552433689262852687965483511578620) (.br 338 (.leaf 337 24519928653854221733733552433689262852687965483511578620) (.leaf 338 24519928653854221733733552433689262852687965483511578620)))) (.br 341 (.br 340 (.leaf 339 24519928653854221733733552434404946937899825954937634812) (.leaf 340 24519928653854221733733552434404946937899825954937634812)) (.br 342 (.leaf 341 21646499514730680124311651758498117218614690100843380732) (.br 343 (.leaf 342 15133440234103047065182059413499825246584984831514273836) (.leaf 343 15138678255971241021240901419940285127293914563393513516))))))))

/-- What may be written directly behind a node if no words run into each other. -/
def behindTree2 : KTree Nat :=
  .br 263 (.br 223 (.br 203 (.br 193 (.br 188 (.br 186 (.br 185 (.leaf 184 24519881885891030125634292410816634094200875557907753132) (.leaf 185 24519881885891030125634292410816634094200875557907753132)) (.br 187 (.leaf 186 24519928653854221733733552434404946937899825954937634812) (.leaf 187 24519881885891030125634292410816634094200875557907753132))) (.br 190 (.br 189 (.leaf 188 24519881885891030125634292410816634094200875557907753132) (.leaf 189 24519881885891030125634292410816634094200875557907753132)) (.br 191 (.leaf 190 24519881885891030125634292410816634094200875557907753132) (.br 192 (.leaf 191 24519928653854221733733552434404946937899825954937634812) (.leaf 192 15138678255971241021240901419940285127293914563393513516))))) (.br 198 (.br 195 (.br 194 (.leaf 193 15138678255971241021240901419940285127293914563393513516) (.leaf 194 24519928653854221733733552434404946937899825954937634812)) (.br 196 (.leaf 195 24519928653854221733733552434404946937899825954937634812) (.br 197 (.leaf 196 24519928653854221733733552434404946937899825954937634812) (.leaf 197 24519928653854221733733552434404946937899825954937634812)))) (.br 200 (.br 199 (.leaf 198 24519881885891030125634292420720159130922458220783888556) (.leaf 199 24519881885891030125634292411532322901779218898979023020)) (.br 201 (.leaf 200 24519928653854221733733552434404946937899825954937634812) (.br 202 (.leaf 201 24519881885891030125634292410816634094200875557907753132) (.leaf 202 24519881885891030125634292410816634094200875557907753132)))))) (.br 213 (.br 208 (.br 205 (.br 204 (.leaf 203 24519881885891030125634292421435843216134318692209944748) (.leaf 204 24519881885891030125634292410816634094200875557907753132)) (.br 206 (.leaf 205 24519928653854221733733552434404946937899825954937634812) (.br 207 (.leaf 206 21454236051425728164410243105710958832170591455761295404) (.leaf 207 24519881885891030125634292411532322901779218898979023020)))) (.br 210 (.br 209 (.leaf 208 24519881885891030125634292411532322901779218898979023020) (.leaf 209 24519881885891030125634292411532322901779218898979023020)) (.br 211 (.leaf 210 24519881885891030125634292411532322901779218898979023020) (.br 212 (.leaf 211 24519881885891030125634292411532322901779218898979023020) (.leaf 212 24519928653854221733733552434404946937899825954937634812))))) (.br 218 (.br 215 (.br 214 (.leaf 213 24519881885891030125634292420720159130922458220783888556) (.leaf 214 24519928653854221733733552433689262852687965483511578620)) (.br 216 (.leaf 215 24519881885891030125634292420720159130922458220783888556) (.br 217 (.leaf 216 24519881885891030125634292411532318179412736029333809324) (.leaf 217 24519881885891030125634292420720159130922458220783888556)))) (.br 220 (.br 219 (.leaf 218 24519928653854221733733552433689262852687965483511578620) (.leaf 219 24519928653854221733733552433689262852687965483511578620)) (.br 221 (.leaf 220 24519928653854221733733552433689262852687965483511578620) (.br 222 (.leaf 221 24519928653854221733733552433689262852687965483511578620) (.leaf 222 24519881885891030125634292420720159130922458220783888556))))))) (.br 243 (.br 233 (.br 228 (.br 225 (.br 224 (.leaf 223 24519928653854221733733552433689262852687965483511578620) (.leaf 224 24519881885891030125634292411532318179412736029333809324)) (.br 226 (.leaf 225 24519881885891030125634292411532318179412736029333809324) (.br 227 (.leaf 226 24519928653854221733733552434404946937899825954937634812) (.leaf 227 15138678255971241021240901419940285127293914563393513516)))) (.br 230 (.br 229 (.leaf 228 24519881885891030125634292411532322901779218898979023020) (.leaf 229 15138678255971241021240901419940285127293914563393513516)) (.br 231 (.leaf 230 15138678255971241021240901419940285127293914563393513516) (.br 232 (.leaf 231 15138678255971241021240901419940285127293914563393513516) (.leaf 232 15138678255971241021240901419940285127293914563393513516))))) (.br 238 (.br 235 (.br 234 (.leaf 233 15138678255971241021240901419940285127293914563393513516) (.leaf 234 24519881885891030125634292411532322901779218898979023020)) (.br 236 (.leaf 235 24519928653854221733733552434404946937899825954937634812) (.br 237 (.leaf 236 24519928653854221733733552434404946937899825954937634812) (.leaf 237 24519928653854221733733552434404946937899825954937634812)))) (.br 240 (.br 239 (.leaf 238 24519928653854221733733552434404946937899825954937634812) (.leaf 239 24519881885891030125634292411532322901779218898979023020)) (.br 241 (.leaf 240 15138678255971241021240901419940285127293914563393513516) (.br 242 (.leaf 241 15138678255971241021240901419940285127293914563393513516) (.leaf 242 24519928653854221733733552434404946937899825954937634812)))))) (.br 253 (.br 248 (.br 245 (.br 244 (.leaf 243 24519928653854221733733552434404946937899825954937634812) (.leaf 244 24519928653854221733733552434404946937899825954937634812)) (.br 246 (.leaf 245 24519928653854221733733552434404946937899825954937634812) (.br 247 (.leaf 246 24519881885891030125634292411532322901779218898979023020) (.leaf 247 21454236051425728164410243105710958832170591455761295404)))) (.br 250 (.br 249 (.leaf 248 24519928653854221733733552434404946937899825954937634812) (.leaf 249 24519881885891030125634292410816634094200875557907753132)) (.br 251 (.leaf 250 21454236051425728164410243105710958832170591455761295404) (.br 252 (.leaf 251 21454236051425728164410243105710958832170591455761295404) (.leaf 252 24519881885891030125634292410816634094200875557907753132))))) (.br 258 (.br 255 (.br 254 (.leaf 253 24519881885891030125634292410816634094200875557907753132) (.leaf 254 24519881885891030125634292411532322901779218898979023020)) (.br 256 (.leaf 255 24519881885891030125634292411532322901779218898979023020) (.br 257 (.leaf 256 24519881885891030125634292411532322901779218898979023020) (.leaf 257 24519928653854221733733552434404946937899825954937634812)))) (.br 260 (.br 259 (.leaf 258 24519881885891030125634292411532322901779218898979023020) (.leaf 259 24519928653854221733733552434404946937899825954937634812)) (.br 261 (.leaf 260 24519928653854221733733552433689262852687965483511578620) (.br 262 (.leaf 261 24519881885891030125634292410816634094200875557907753132) (.leaf 262 24519928653854221733733552434404946937899825954937634812)))))))) (.br 302 (.br 282 (.br 272 (.br 267 (.br 265 (.br 264 (.leaf 263 24519928653854221733733552434404946937899825954937634812) (.leaf 264 24519928653854221733733552434404946937899825954937634812)) (.br 266 (.leaf 265 24519928653854221733733552434404946937899825954937634812) (.leaf 266 24519928653854221733733552434404946937899825954937634812))) (.br 269 (.br 268 (.leaf 267 24519928653854221733733552433689262852687965483511578620) (.leaf 268 24519928653854221733733552433689262852687965483511578620)) (.br 270 (.leaf 269 24519928653854221733733552434404946937899825954937634812) (.br 271 (.leaf 270 24519928653854221733733552434404946937899825954937634812) (.leaf 271 24519928653854221733733552434404946937899825954937634812))))) (.br 277 (.br 274 (.br 273 (.leaf 272 24519881885891030125634292411532318179412736029333809324) (.leaf 273 24519881885891030125634292411532322901779218898979023020)) (.br 275 (.leaf 274 24519881885891030125634292411532318179412736029333809324) (.br 276 (.leaf 275 24519881885891030125634292411532322901779218898979023020) (.leaf 276 24519928653854221733733552433689262852687965483511578620)))) (.br 279 (.br 278 (.leaf 277 24519928653854221733733552433689262852687965483511578620) (.leaf 278 21454236051425728164410243105710958832170591455761295404)) (.br 280 (.leaf 279 24519881885891030125634292411532318179412736029333809324) (.br 281 (.leaf 280 24519928653854221733733552434404946937899825954937634812) (.leaf 281 24519881885891030125634292411532318179412736029333809324)))))) (.br 292 (.br 287 (.br 284 (.br 283 (.leaf 282 24519881885891030125634292411532318179412736029333809324) (.leaf 283 24519928653854221733733552434404946937899825954937634812)) (.br 285 (.leaf 284 24519881885891030125634292411532318179412736029333809324) (.br 286 (.leaf 285 24519881885891030125634292411532318179412736029333809324) (.leaf 286 24519928653854221733733552434404946937899825954937634812)))) (.br 289 (.br 288 (.leaf 287 24519881885891030125634292411532322901779218898979023020) (.leaf 288 24519881885891030125634292411532318179412736029333809324)) (.br 290 (.leaf 289 24519881885891030125634292410816634094200875557907753132) (.br 291 (.leaf 290 24519928653854221733733552433689262852687965483511578620) (.leaf 291 24519881885891030125634292410816634094200875557907753132))))) (.br 297 (.br 294 (.br 293 (.leaf 292 24519881885891030125634292411532322901779218898979023020) (.leaf 293 24519881885891030125634292410816634094200875557907753132)) (.br 295 (.leaf 294 24519881885891030125634292410816634094200875557907753132) (.br 296 (.leaf 295 24519881885891030125634292410816634094200875557907753132) (.leaf 296 24519881885891030125634292410816634094200875557907753132)))) (.br 299 (.br 298 (.leaf 297 24519928653854221733733552433689262852687965483511578620) (.leaf 298 24519881885891030125634292410816634094200875557907753132)) (.br 300 (.leaf 299 15180582430916792669711637470748242308821628989839665196) (.br 301 (.leaf 300 24519881885891030125634292421435843216134318692209944748) (.leaf 301 24519881885891030125634292410816634094200875557907753132))))))) (.br 324 (.br 312 (.br 307 (.br 304 (.br 303 (.leaf 302 15180582430916792669711637470748242308821628989839665196) (.leaf 303 24519881885891030125634292410816634094200875557907753132)) (.br 305 (.leaf 304 24519881885891030125634292410816634094200875557907753132) (.br 306 (.leaf 305 15180582430916792669711637470748242308821628989839665196) (.leaf 306 15180582430916792669711637470748242308821628989839665196)))) (.br 309 (.br 308 (.leaf 307 15180582430916792669711637470748242308821628989839665196) (.leaf 308 15180582430916792669711637470748242308821628989839665196)) (.br 310 (.leaf 309 24519881885891030125634292410816638816567358427552966828) (.br 311 (.leaf 310 15180582430916792669711637481367446708316531660458715180) (.leaf 311 24519881885891030125634292410816638816567358427552966828))))) (.br 319 (.br 315 (.br 314 (.leaf 312 24519881885891030125634292411532322901779218898979023020) (.leaf 314 24519928653854221733733552433689262852687965483511578620)) (.br 316 (.leaf 315 24519928653854221733733552434404946937899825954937634812) (.br 317 (.leaf 316 24519928653854221733733552433689262852687965483511578620) (.leaf 317 24519928653854221733733552434404946937899825954937634812)))) (.br 321 (.br 320 (.leaf 319 24519881885891030125634292411532322901779218898979023020) (.leaf 320 24519881885891030125634292410816634094200875557907753132)) (.br 322 (.leaf 321 24519881885891030125634292410816634094200875557907753132) (.br 323 (.leaf 322 24519881885891030125634292410816634094200875557907753132) (.leaf 323 24519881885891030125634292410816634094200875557907753132)))))) (.br 334 (.br 329 (.br 326 (.br 325 (.leaf 324 24519881885891030125634292410816634094200875557907753132) (.leaf 325 24519881885891030125634292410816634094200875557907753132)) (.br 327 (.leaf 326 24519881885891030125634292410816634094200875557907753132) (.br 328 (.leaf 327 24519881885891030125634292411532318179412736029333809324) (.leaf 328 24519881885891030125634292411532318179412736029333809324)))) (.br 331 (.br 330 (.leaf 329 24519881885891030125634292410816634094200875557907753132) (.leaf 330 24519881885891030125634292410816634094200875557907753132)) (.br 332 (.leaf 331 24519928653854221733733552434404946937899825954937634812) (.br 333 (.leaf 332 24519881885891030125634292411532322901779218898979023020) (.leaf 333 24519881885891030125634292411532318179412736029333809324))))) (.br 339 (.br 336 (.br 335 (.leaf 334 24519881885891030125634292410816638816567358427552966828) (.leaf 335 24519928653854221733733552433689262852687965483511578620)) (.br 337 (.leaf 336 24519928653854221733733552433689262852687965483511578620) (.br 338 (.leaf 337 24519928653854221733733552433689262852687965483511578620) (.leaf 338 24519928653854221733733552433689262852687965483511578620)))) (.br 341 (.br 340 (.leaf 339 24519928653854221733733552434404946937899825954937634812) (.leaf 340 24519928653854221733733552434404946937899825954937634812)) (.br 342 (.leaf 341 24519928653854221733733552434404946937899825954937634812) (.br 343 (.leaf 342 24519881885891030125634292411532318179412736029333809324) (.leaf 343 24519881885891030125634292411532322901779218898979023020))))))))

/-- The kinds whose tokens begin with characters of the classes of `safeTable`. -/
def okClasses : List Nat := [24519928653854221733733552434404946937899825954937634812, 0, 24519928653854221733733552433167006898614445680038502392, 21454282819388919772509503129299233896937678895629467512, 15133440234103047065182059413499825246584984831514273836, 15138678255971241021240901419940285127293914563393513516, 15180582430916792669711637481367446708388589254496643116, 21268660419434796454674289528541521861840928646165850156, 24519928653854221733733552434404342179842113460996407292, 24519928653854221733733552433689262852687965483511578620, 21454282819388919772509503129299271675869541852791177084, 24519928653854221733733552434404342179842113460996145148, 24519881885801827144840169916490298836251576247684956156, 21454282819388919772509503129299271675797484258753249148, 24519928653854221733733552434402529086260596696588222460, 4, 24519928653854221733733552433686845001048736225162166268, 24519928653854221733733552434404946935593982945723938812, 23562118940813041197259585542436003698138114003572883452, 22604309227771860660785618650467060458376402052208132092]

/-- Those that begin with characters that cannot continue a word. -/
def okWord : Nat := 15138678255971241021240901419940285127293914563393513516

end Verif.Format
