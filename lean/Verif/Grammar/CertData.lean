-- GENERATED by /verif/tools/gen_cert.py; do not edit.
import Verif.Grammar.Term
/-!
# Termination certificate (data)

For every parse function: the kinds at which it may finish without consuming a token, its FIRST set, its ranks.
Not part of the code; checked by the kernel in `Verif.Grammar.Cert`.
-/
namespace Verif.Grammar

def postTree : KTree Mask :=
  (.br 263
   (.br 223
    (.br 203
     (.br 193
      (.br 188
       (.br 186
        (.br 185
         (.leaf 184 458753)
         (.leaf 185 458753))
        (.br 187
         (.leaf 186 35835915874844867368919076489095108449946327955754392558354153689254079222688709975071656047981465960367)
         (.leaf 187 1)))
       (.br 190
        (.br 189
         (.leaf 188 1)
         (.leaf 189 1))
        (.br 191
         (.leaf 190 1)
         (.br 192
          (.leaf 191 35835915874844867368919076489095108449946327955754392558399825615420669938882575126094039892337123917823)
          (.leaf 192 35835915874844867368919076489095108449946327955754392558354153689254079222688709975071651619389147447215)))))
      (.br 198
       (.br 195
        (.br 194
         (.leaf 193 35835915874844867368919076489095108449946327955754392558354153689254079222688709975071651619389147447215)
         (.leaf 194 35835915874844867368919076489095108449946327955754392558399825615420669938882575126094039892345713852367))
        (.br 196
         (.leaf 195 35835915874844867368919076489095108449946327955754392558399825615420669938882575126094039892345713852191)
         (.br 197
          (.leaf 196 458753)
          (.leaf 197 458753))))
       (.br 200
        (.br 199
         (.leaf 198 458753)
         (.leaf 199 458753))
        (.br 201
         (.leaf 200 1)
         (.br 202
          (.leaf 201 35835915874844867368919076489095108449946327955754392558399825615420669938882575126094039892338835193855)
          (.leaf 202 1))))))
     (.br 213
      (.br 208
       (.br 205
        (.br 204
         (.leaf 203 458753)
         (.leaf 204 458753))
        (.br 206
         (.leaf 205 35835915874844867368919076489095108449946327955729872723282076182864723151483534999918158354536606594911)
         (.br 207
          (.leaf 206 458753)
          (.leaf 207 458753))))
       (.br 210
        (.br 209
         (.leaf 208 458753)
         (.leaf 209 458753))
        (.br 211
         (.leaf 210 458753)
         (.br 212
          (.leaf 211 458753)
          (.leaf 212 1)))))
      (.br 218
       (.br 215
        (.br 214
         (.leaf 213 458753)
         (.leaf 214 458753))
        (.br 216
         (.leaf 215 458753)
         (.br 217
          (.leaf 216 458753)
          (.leaf 217 458753))))
       (.br 220
        (.br 219
         (.leaf 218 458753)
         (.leaf 219 458753))
        (.br 221
         (.leaf 220 458753)
         (.br 222
          (.leaf 221 458753)
          (.leaf 222 458753)))))))
    (.br 243
     (.br 233
      (.br 228
       (.br 225
        (.br 224
         (.leaf 223 458753)
         (.leaf 224 35835915874844867368919076489095108449946327955754392464863720826242883173846745832251926634363883618303))
        (.br 226
         (.leaf 225 35835915874844867368919076489095108449946327955754392464863720826242883173846745832251926634361736134655)
         (.br 227
          (.leaf 226 458753)
          (.leaf 227 458753))))
       (.br 230
        (.br 229
         (.leaf 228 458753)
         (.leaf 229 458753))
        (.br 231
         (.leaf 230 458753)
         (.br 232
          (.leaf 231 458753)
          (.leaf 232 458753)))))
      (.br 238
       (.br 235
        (.br 234
         (.leaf 233 458753)
         (.leaf 234 458753))
        (.br 236
         (.leaf 235 35835915874844867368919076489095108449946327955729872723282076182864723151483534999918140199400608757599)
         (.br 237
          (.leaf 236 35835915874844867368919076489095108449946327955729872723282076182864723151483534999918140058663120402271)
          (.leaf 237 35835915874844867368919076489095108449946327955729872723282076182864723151483534999918139777188143691615))))
       (.br 240
        (.br 239
         (.leaf 238 1)
         (.leaf 239 458753))
        (.br 241
         (.leaf 240 458753)
         (.br 242
          (.leaf 241 458753)
          (.leaf 242 35835915874844867368919076489095108449946327955729872723282076182864723151483534999918140340138097112927))))))
     (.br 253
      (.br 248
       (.br 245
        (.br 244
         (.leaf 243 35835915874844867368919076489095108449946327955729872723282076182864723151483534999918140340138097112927)
         (.leaf 244 35835915874844867368919076489095108449946327955729872723282076182864723151483534999918139214238190270303))
        (.br 246
         (.leaf 245 35835915874844867368919076489095108449946327955729872723282076182864723151483534999918140304953725024095)
         (.br 247
          (.leaf 246 458753)
          (.leaf 247 35835915874844867368919076489095108449946327955729872723282076182864723151483534999918140340138097506143))))
       (.br 250
        (.br 249
         (.leaf 248 65537)
         (.leaf 249 458753))
        (.br 251
         (.leaf 250 35835915874844867368919076489095108449946327955729872723282076182864723151483534999870005867312171579231)
         (.br 252
          (.leaf 251 458753)
          (.leaf 252 458753)))))
      (.br 258
       (.br 255
        (.br 254
         (.leaf 253 458753)
         (.leaf 254 35835915874844867368919076489095108449946327955732937620827703171403653080502470570849642251704097308511))
        (.br 256
         (.leaf 255 458753)
         (.br 257
          (.leaf 256 35835915874844867368919076489095108449946327955754392558399825615420669938882575126093895777157637472255)
          (.leaf 257 458753))))
       (.br 260
        (.br 259
         (.leaf 258 35835915874844867368919076489095108449946327955754392558399825615420669938882575126093895777157637472255)
         (.leaf 259 458753))
        (.br 261
         (.leaf 260 327681)
         (.br 262
          (.leaf 261 458753)
          (.leaf 262 1))))))))
   (.br 302
    (.br 282
     (.br 272
      (.br 267
       (.br 265
        (.br 264
         (.leaf 263 1)
         (.leaf 264 1))
        (.br 266
         (.leaf 265 1)
         (.leaf 266 1)))
       (.br 269
        (.br 268
         (.leaf 267 458753)
         (.leaf 268 458753))
        (.br 270
         (.leaf 269 458753)
         (.br 271
          (.leaf 270 65537)
          (.leaf 271 65537)))))
      (.br 277
       (.br 274
        (.br 273
         (.leaf 272 458753)
         (.leaf 273 458753))
        (.br 275
         (.leaf 274 458753)
         (.br 276
          (.leaf 275 458753)
          (.leaf 276 458753))))
       (.br 279
        (.br 278
         (.leaf 277 458753)
         (.leaf 278 458753))
        (.br 280
         (.leaf 279 458753)
         (.br 281
          (.leaf 280 458753)
          (.leaf 281 458753))))))
     (.br 292
      (.br 287
       (.br 284
        (.br 283
         (.leaf 282 458753)
         (.leaf 283 458753))
        (.br 285
         (.leaf 284 458753)
         (.br 286
          (.leaf 285 458753)
          (.leaf 286 458753))))
       (.br 289
        (.br 288
         (.leaf 287 458753)
         (.leaf 288 458753))
        (.br 290
         (.leaf 289 458753)
         (.br 291
          (.leaf 290 458753)
          (.leaf 291 35835915874844867368919076489095108449946327955751327567318093837703953244828274280905637283768699977567)))))
      (.br 297
       (.br 294
        (.br 293
         (.leaf 292 458753)
         (.leaf 293 458753))
        (.br 295
         (.leaf 294 458753)
         (.br 296
          (.leaf 295 458753)
          (.leaf 296 458753))))
       (.br 299
        (.br 298
         (.leaf 297 458753)
         (.leaf 298 35835915874844867368919076489095108449946327955751327567318093837703953244828274270280312697311998244703))
        (.br 300
         (.leaf 299 458753)
         (.br 301
          (.leaf 300 458753)
          (.leaf 301 458753)))))))
    (.br 324
     (.br 312
      (.br 307
       (.br 304
        (.br 303
         (.leaf 302 458753)
         (.leaf 303 458753))
        (.br 305
         (.leaf 304 458753)
         (.br 306
          (.leaf 305 458753)
          (.leaf 306 458753))))
       (.br 309
        (.br 308
         (.leaf 307 458753)
         (.leaf 308 458753))
        (.br 310
         (.leaf 309 458753)
         (.br 311
          (.leaf 310 458753)
          (.leaf 311 458753)))))
      (.br 319
       (.br 315
        (.br 314
         (.leaf 312 458753)
         (.leaf 314 458753))
        (.br 316
         (.leaf 315 458753)
         (.br 317
          (.leaf 316 458753)
          (.leaf 317 458753))))
       (.br 321
        (.br 320
         (.leaf 319 458753)
         (.leaf 320 458753))
        (.br 322
         (.leaf 321 458753)
         (.br 323
          (.leaf 322 458753)
          (.leaf 323 458753))))))
     (.br 334
      (.br 329
       (.br 326
        (.br 325
         (.leaf 324 458753)
         (.leaf 325 458753))
        (.br 327
         (.leaf 326 458753)
         (.br 328
          (.leaf 327 458753)
          (.leaf 328 458753))))
       (.br 331
        (.br 330
         (.leaf 329 458753)
         (.leaf 330 458753))
        (.br 332
         (.leaf 331 458753)
         (.br 333
          (.leaf 332 458753)
          (.leaf 333 458753)))))
      (.br 339
       (.br 336
        (.br 335
         (.leaf 334 458753)
         (.leaf 335 458753))
        (.br 337
         (.leaf 336 458753)
         (.br 338
          (.leaf 337 458753)
          (.leaf 338 458753))))
       (.br 341
        (.br 340
         (.leaf 339 1)
         (.leaf 340 1))
        (.br 342
         (.leaf 341 458753)
         (.br 343
          (.leaf 342 458753)
          (.leaf 343 458753)))))))))

def firstTree : KTree Mask :=
  (.br 263
   (.br 223
    (.br 203
     (.br 193
      (.br 188
       (.br 186
        (.br 185
         (.leaf 184 45671926166590716193865151022383844364254216528)
         (.leaf 185 45671926166590716193865151022383844364254216528))
        (.br 187
         (.leaf 186 45671926166590716193865151022383844364247892048)
         (.leaf 187 256)))
       (.br 190
        (.br 189
         (.leaf 188 32768)
         (.leaf 189 2097152))
        (.br 191
         (.leaf 190 4194304)
         (.br 192
          (.leaf 191 8589934592)
          (.leaf 192 45671926166590716193865151022388272956566405200)))))
      (.br 198
       (.br 195
        (.br 194
         (.leaf 193 45671926166590716193865151022388272956566405200)
         (.leaf 194 16))
        (.br 196
         (.leaf 195 64)
         (.br 197
          (.leaf 196 45671926166590716193865151022383844364247891968)
          (.leaf 197 574685827824708321884380135181365943857027170818850816))))
       (.br 200
        (.br 199
         (.leaf 198 256)
         (.leaf 199 8388608))
        (.br 201
         (.leaf 200 196608)
         (.br 202
          (.leaf 201 6878658560)
          (.leaf 202 256))))))
     (.br 213
      (.br 208
       (.br 205
        (.br 204
         (.leaf 203 226673591177742970257408)
         (.leaf 204 6129935326903271594653931295246828973213011273555380384))
        (.br 206
         (.leaf 205 131072)
         (.br 207
          (.leaf 206 24519835117749432555946787399040126175881537809106864288)
          (.leaf 207 3064991081731777716716694054300845040828655987337461920))))
       (.br 210
        (.br 209
         (.leaf 208 3064991081731777716716694054300618367237478244367204512)
         (.leaf 209 16777216))
        (.br 211
         (.leaf 210 3064991081731777716716694054300618367237478244367204512)
         (.br 212
          (.leaf 211 3064991081731777716716694054300618367237478244367204512)
          (.leaf 212 131072)))))
      (.br 218
       (.br 215
        (.br 214
         (.leaf 213 33554432)
         (.leaf 214 134217728))
        (.br 216
         (.leaf 215 268435456)
         (.br 217
          (.leaf 216 6442450944)
          (.leaf 217 3065037781276283055724002266562484956884955132017510560))))
       (.br 220
        (.br 219
         (.leaf 218 46699544505339007308212261639916056299144680046592)
         (.leaf 219 3064991081731777716716694054300618367237478244367204512))
        (.br 221
         (.leaf 220 3065037781276283055724002266562258283293777389047253152)
         (.br 222
          (.leaf 221 3065037781276283055724002266562258283293777389047253152)
          (.leaf 222 3065037781276283055724002266562484956884955133628123296)))))))
    (.br 243
     (.br 233
      (.br 228
       (.br 225
        (.br 224
         (.leaf 223 2048)
         (.leaf 224 2147483648))
        (.br 226
         (.leaf 225 4294967296)
         (.br 227
          (.leaf 226 226675897020752183953408)
          (.leaf 227 4428592318513152))))
       (.br 230
        (.br 229
         (.leaf 228 34359738368)
         (.leaf 229 274877906944))
        (.br 231
         (.leaf 230 549755813888)
         (.br 232
          (.leaf 231 2199023255552)
          (.leaf 232 8796093022208)))))
      (.br 238
       (.br 235
        (.br 234
         (.leaf 233 17592186044416)
         (.leaf 234 1099511627776))
        (.br 236
         (.leaf 235 140737488355328)
         (.br 237
          (.leaf 236 281474976710656)
          (.leaf 237 562949953421312))))
       (.br 240
        (.br 239
         (.leaf 238 3412884092616704)
         (.leaf 239 18014398509481984))
        (.br 241
         (.leaf 240 63050394799964160)
         (.br 242
          (.leaf 241 3064991081731777716716694054300618367264499842131427488)
          (.leaf 242 131072))))))
     (.br 253
      (.br 248
       (.br 245
        (.br 244
         (.leaf 243 131072)
         (.leaf 244 1125899906842624))
        (.br 246
         (.leaf 245 35184372088832)
         (.br 247
          (.leaf 246 4503599627370496)
          (.leaf 247 24519835117749432555946787399040126175899552207616346272))))
       (.br 250
        (.br 249
         (.leaf 248 18014398509481984)
         (.leaf 249 24519835117749432555946787399040126175881537809106864288))
        (.br 251
         (.leaf 250 24519835117749432555946787399040126224034025033542273184)
         (.br 252
          (.leaf 251 24519835117749432555946787399040126175881537809106864288)
          (.leaf 252 154742504910672534362390528)))))
      (.br 258
       (.br 255
        (.br 254
         (.leaf 253 154742504910672534362390528)
         (.leaf 254 144115188075855872))
        (.br 256
         (.leaf 255 21454937572122444017016858380104555244253525453540688032)
         (.br 257
          (.leaf 256 144115188076380160)
          (.leaf 257 524288))))
       (.br 260
        (.br 259
         (.leaf 258 144115188076380160)
         (.leaf 259 524288))
        (.br 261
         (.leaf 260 48152487224435408896)
         (.br 262
          (.leaf 261 24519835117749432555946787399040126175881537809106864288)
          (.leaf 262 131072))))))))
   (.br 302
    (.br 282
     (.br 272
      (.br 267
       (.br 265
        (.br 264
         (.leaf 263 288230376151711744)
         (.leaf 264 9223372036854775808))
        (.br 266
         (.leaf 265 18014398509481984)
         (.leaf 266 576460752303423488)))
       (.br 269
        (.br 268
         (.leaf 267 36893488147419103232)
         (.leaf 268 1152921504606846976))
        (.br 270
         (.leaf 269 8589934592)
         (.br 271
          (.leaf 270 226673591177742970257408)
          (.leaf 271 2305843009213696000)))))
      (.br 277
       (.br 274
        (.br 273
         (.leaf 272 6129888627358766255646623073081427906794729596203827360)
         (.leaf 273 2873429139123541609421900675906829719285135854094254080))
        (.br 275
         (.leaf 274 47796949547269849036933308769153319874827617885487104)
         (.br 276
          (.leaf 275 143671456956177080471095033795341485964256792704712704)
          (.leaf 276 2305843009213696000))))
       (.br 279
        (.br 278
         (.leaf 277 2305843009213696000)
         (.leaf 278 24519835117749432555946787399040126175881537809106864288))
        (.br 280
         (.leaf 279 24519835117749432555946787398885364781504933796163616928)
         (.br 281
          (.leaf 280 154742504910672534362390528)
          (.leaf 281 24519835117749432555946787399040107284109763321312313504))))))
     (.br 292
      (.br 287
       (.br 284
        (.br 283
         (.leaf 282 24519835117749432555946787399040107284109763321312313504)
         (.leaf 283 309485009821345068724781056))
        (.br 285
         (.leaf 284 24519835117749432555946787398885364779199090786949922976)
         (.br 286
          (.leaf 285 24519835117749432555946787398885364779199090786949922976)
          (.leaf 286 309485009821345068724781056))))
       (.br 289
        (.br 288
         (.leaf 287 3064991081731777716716694054300618367237478244367204512)
         (.leaf 288 6129888627358766255646623073081427902183043577776439456))
        (.br 290
         (.leaf 289 3064991081731777716716694054300845188402608577013874848)
         (.br 291
          (.leaf 290 18889465931478580856832)
          (.leaf 291 3064991081731777716716694054300845188402608577013874848)))))
      (.br 297
       (.br 294
        (.br 293
         (.leaf 292 3064991081731777716716694054300845188402608577013874848)
         (.leaf 293 24519835117749432555946787399040126175881537809106864288))
        (.br 295
         (.leaf 294 24519835117749432555946787399040126175881537809106864288)
         (.br 296
          (.leaf 295 24519835117749432555946787399040126175881537809106864288)
          (.leaf 296 3064991081731777716716694054300855813727195033715607712))))
       (.br 299
        (.br 298
         (.leaf 297 18889465931478580856832)
         (.leaf 298 3064991081731777716716694054300855813727195033715607712))
        (.br 300
         (.leaf 299 3064991081731777716716694054300629140136017290745350304)
         (.br 301
          (.leaf 300 226673591177742970257408)
          (.leaf 301 24519835117749432555946787399040126175881537809106864288)))))))
    (.br 324
     (.br 312
      (.br 307
       (.br 304
        (.br 303
         (.leaf 302 3064991081731777716716694054300629140136017290745350304)
         (.leaf 303 24519835117749432555946787399040126175881537809106864288))
        (.br 305
         (.leaf 304 24519835117749432555946787399040126175881537809106864288)
         (.br 306
          (.leaf 305 3064991081731777716716694054300629140136017290745350304)
          (.leaf 306 3064991081731777716716694054300629140136017290745350304))))
       (.br 309
        (.br 308
         (.leaf 307 3064991081731777716716694054300629140136017290745350304)
         (.leaf 308 3064991081731777716716694054300627959544396573334046880))
        (.br 310
         (.leaf 309 3064991081731777716716694054300627959544396573334046880)
         (.br 311
          (.leaf 310 7083549724304467836928)
          (.leaf 311 3064991081731777716716694054300619695403051551454922912)))))
      (.br 319
       (.br 315
        (.br 314
         (.leaf 312 3064991081731777716716694054300619695403051551454920864)
         (.leaf 314 2048))
        (.br 316
         (.leaf 315 18889465931478580854784)
         (.br 317
          (.leaf 316 2048)
          (.leaf 317 18889465931478580854784))))
       (.br 321
        (.br 320
         (.leaf 319 18389946490390666300300164325803710203424869466203226112)
         (.leaf 320 6129935326903271594653931295246828973213011273555380384))
        (.br 322
         (.leaf 321 6129935326903271594653931295246828973213011273555380384)
         (.br 323
          (.leaf 322 6129935326903271594653931295246828973213011273555380384)
          (.leaf 323 6129935326903271594653931295246828973213011273555380384))))))
     (.br 334
      (.br 329
       (.br 326
        (.br 325
         (.leaf 324 6129935326903271594653931295246828973213011273555380384)
         (.leaf 325 6129935326903271594653931295246828973213011273555380384))
        (.br 327
         (.leaf 326 6129935326903271594653931295246828973213011273555380384)
         (.br 328
          (.leaf 327 5238021868193956058842006440455158342446862234025984)
          (.leaf 328 41904174945551648470736051523641266739574897872207872))))
       (.br 331
        (.br 330
         (.leaf 329 6129935326903271594653931295246828973213011273555380384)
         (.leaf 330 6129935326903271594653931285343294491830520465426745504))
        (.br 332
         (.leaf 331 309485009821345068724781056)
         (.br 333
          (.leaf 332 3064991081731777716716694054300845040828655987337461920)
          (.leaf 333 6129888627358766255646623073081654575774221320746696864)))))
      (.br 339
       (.br 336
        (.br 335
         (.leaf 334 3064991081731777716716694054300618367237478244367204512)
         (.leaf 335 22657557121707113111800289765010735290076102656))
        (.br 337
         (.leaf 336 22300745198530623141535718272648361505980416)
         (.br 338
          (.leaf 337 44601490397061246283071436545296723011960832)
          (.leaf 338 11150372599265311570767859136324180752990208))))
       (.br 341
        (.br 340
         (.leaf 339 89202980794122492566142873090593446023921664)
         (.leaf 340 4951760157141521099596496896))
        (.br 342
         (.leaf 341 2873429139123541609421900675906829719285135854094254080)
         (.br 343
          (.leaf 342 654752733524244507355250805056894792805857779253248)
          (.leaf 343 3064991081731777716716694054300618367237478244367204480)))))))))

def rinTree : KTree Nat :=
  (.br 263
   (.br 223
    (.br 203
     (.br 193
      (.br 188
       (.br 186
        (.br 185
         (.leaf 184 3)
         (.leaf 185 2))
        (.br 187
         (.leaf 186 1)
         (.leaf 187 1)))
       (.br 190
        (.br 189
         (.leaf 188 0)
         (.leaf 189 0))
        (.br 191
         (.leaf 190 0)
         (.br 192
          (.leaf 191 0)
          (.leaf 192 4)))))
      (.br 198
       (.br 195
        (.br 194
         (.leaf 193 3)
         (.leaf 194 0))
        (.br 196
         (.leaf 195 0)
         (.br 197
          (.leaf 196 0)
          (.leaf 197 0))))
       (.br 200
        (.br 199
         (.leaf 198 0)
         (.leaf 199 0))
        (.br 201
         (.leaf 200 1)
         (.br 202
          (.leaf 201 2)
          (.leaf 202 1))))))
     (.br 213
      (.br 208
       (.br 205
        (.br 204
         (.leaf 203 0)
         (.leaf 204 12))
        (.br 206
         (.leaf 205 0)
         (.br 207
          (.leaf 206 4)
          (.leaf 207 2))))
       (.br 210
        (.br 209
         (.leaf 208 3)
         (.leaf 209 0))
        (.br 211
         (.leaf 210 2)
         (.br 212
          (.leaf 211 1)
          (.leaf 212 0)))))
      (.br 218
       (.br 215
        (.br 214
         (.leaf 213 0)
         (.leaf 214 0))
        (.br 216
         (.leaf 215 0)
         (.br 217
          (.leaf 216 1)
          (.leaf 217 3))))
       (.br 220
        (.br 219
         (.leaf 218 1)
         (.leaf 219 2))
        (.br 221
         (.leaf 220 4)
         (.br 222
          (.leaf 221 3)
          (.leaf 222 4)))))))
    (.br 243
     (.br 233
      (.br 228
       (.br 225
        (.br 224
         (.leaf 223 0)
         (.leaf 224 0))
        (.br 226
         (.leaf 225 0)
         (.br 227
          (.leaf 226 2)
          (.leaf 227 2))))
       (.br 230
        (.br 229
         (.leaf 228 0)
         (.leaf 229 0))
        (.br 231
         (.leaf 230 0)
         (.br 232
          (.leaf 231 0)
          (.leaf 232 0)))))
      (.br 238
       (.br 235
        (.br 234
         (.leaf 233 0)
         (.leaf 234 0))
        (.br 236
         (.leaf 235 0)
         (.br 237
          (.leaf 236 0)
          (.leaf 237 0))))
       (.br 240
        (.br 239
         (.leaf 238 1)
         (.leaf 239 0))
        (.br 241
         (.leaf 240 1)
         (.br 242
          (.leaf 241 2)
          (.leaf 242 0))))))
     (.br 253
      (.br 248
       (.br 245
        (.br 244
         (.leaf 243 0)
         (.leaf 244 0))
        (.br 246
         (.leaf 245 0)
         (.br 247
          (.leaf 246 0)
          (.leaf 247 5))))
       (.br 250
        (.br 249
         (.leaf 248 0)
         (.leaf 249 3))
        (.br 251
         (.leaf 250 5)
         (.br 252
          (.leaf 251 4)
          (.leaf 252 1)))))
      (.br 258
       (.br 255
        (.br 254
         (.leaf 253 1)
         (.leaf 254 0))
        (.br 256
         (.leaf 255 2)
         (.br 257
          (.leaf 256 1)
          (.leaf 257 0))))
       (.br 260
        (.br 259
         (.leaf 258 1)
         (.leaf 259 0))
        (.br 261
         (.leaf 260 2)
         (.br 262
          (.leaf 261 3)
          (.leaf 262 1))))))))
   (.br 302
    (.br 282
     (.br 272
      (.br 267
       (.br 265
        (.br 264
         (.leaf 263 0)
         (.leaf 264 0))
        (.br 266
         (.leaf 265 0)
         (.leaf 266 0)))
       (.br 269
        (.br 268
         (.leaf 267 0)
         (.leaf 268 0))
        (.br 270
         (.leaf 269 0)
         (.br 271
          (.leaf 270 1)
          (.leaf 271 0)))))
      (.br 277
       (.br 274
        (.br 273
         (.leaf 272 2)
         (.leaf 273 1))
        (.br 275
         (.leaf 274 1)
         (.br 276
          (.leaf 275 0)
          (.leaf 276 0))))
       (.br 279
        (.br 278
         (.leaf 277 0)
         (.leaf 278 4))
        (.br 280
         (.leaf 279 2)
         (.br 281
          (.leaf 280 0)
          (.leaf 281 2))))))
     (.br 292
      (.br 287
       (.br 284
        (.br 283
         (.leaf 282 2)
         (.leaf 283 0))
        (.br 285
         (.leaf 284 2)
         (.br 286
          (.leaf 285 2)
          (.leaf 286 0))))
       (.br 289
        (.br 288
         (.leaf 287 2)
         (.leaf 288 2))
        (.br 290
         (.leaf 289 4)
         (.br 291
          (.leaf 290 1)
          (.leaf 291 5)))))
      (.br 297
       (.br 294
        (.br 293
         (.leaf 292 3)
         (.leaf 293 5))
        (.br 295
         (.leaf 294 4)
         (.br 296
          (.leaf 295 3)
          (.leaf 296 9))))
       (.br 299
        (.br 298
         (.leaf 297 1)
         (.leaf 298 10))
        (.br 300
         (.leaf 299 8)
         (.br 301
          (.leaf 300 1)
          (.leaf 301 5)))))))
    (.br 324
     (.br 312
      (.br 307
       (.br 304
        (.br 303
         (.leaf 302 7)
         (.leaf 303 4))
        (.br 305
         (.leaf 304 3)
         (.br 306
          (.leaf 305 6)
          (.leaf 306 5))))
       (.br 309
        (.br 308
         (.leaf 307 4)
         (.leaf 308 3))
        (.br 310
         (.leaf 309 2)
         (.br 311
          (.leaf 310 0)
          (.leaf 311 3)))))
      (.br 319
       (.br 315
        (.br 314
         (.leaf 312 2)
         (.leaf 314 0))
        (.br 316
         (.leaf 315 0)
         (.br 317
          (.leaf 316 0)
          (.leaf 317 0))))
       (.br 321
        (.br 320
         (.leaf 319 0)
         (.leaf 320 11))
        (.br 322
         (.leaf 321 10)
         (.br 323
          (.leaf 322 9)
          (.leaf 323 8))))))
     (.br 334
      (.br 329
       (.br 326
        (.br 325
         (.leaf 324 7)
         (.leaf 325 6))
        (.br 327
         (.leaf 326 5)
         (.br 328
          (.leaf 327 0)
          (.leaf 328 0))))
       (.br 331
        (.br 330
         (.leaf 329 4)
         (.leaf 330 3))
        (.br 332
         (.leaf 331 0)
         (.br 333
          (.leaf 332 2)
          (.leaf 333 2)))))
      (.br 339
       (.br 336
        (.br 335
         (.leaf 334 2)
         (.leaf 335 0))
        (.br 337
         (.leaf 336 0)
         (.br 338
          (.leaf 337 0)
          (.leaf 338 0))))
       (.br 341
        (.br 340
         (.leaf 339 0)
         (.leaf 340 0))
        (.br 342
         (.leaf 341 0)
         (.br 343
          (.leaf 342 0)
          (.leaf 343 0)))))))))

def routTree : KTree Nat :=
  (.br 263
   (.br 223
    (.br 203
     (.br 193
      (.br 188
       (.br 186
        (.br 185
         (.leaf 184 1)
         (.leaf 185 0))
        (.br 187
         (.leaf 186 0)
         (.leaf 187 8)))
       (.br 190
        (.br 189
         (.leaf 188 1)
         (.leaf 189 3))
        (.br 191
         (.leaf 190 8)
         (.br 192
          (.leaf 191 0)
          (.leaf 192 0)))))
      (.br 198
       (.br 195
        (.br 194
         (.leaf 193 0)
         (.leaf 194 0))
        (.br 196
         (.leaf 195 0)
         (.br 197
          (.leaf 196 1)
          (.leaf 197 0))))
       (.br 200
        (.br 199
         (.leaf 198 1)
         (.leaf 199 4))
        (.br 201
         (.leaf 200 7)
         (.br 202
          (.leaf 201 0)
          (.leaf 202 8))))))
     (.br 213
      (.br 208
       (.br 205
        (.br 204
         (.leaf 203 0)
         (.leaf 204 8))
        (.br 206
         (.leaf 205 5)
         (.br 207
          (.leaf 206 1)
          (.leaf 207 0))))
       (.br 210
        (.br 209
         (.leaf 208 2)
         (.leaf 209 3))
        (.br 211
         (.leaf 210 1)
         (.br 212
          (.leaf 211 0)
          (.leaf 212 6)))))
      (.br 218
       (.br 215
        (.br 214
         (.leaf 213 4)
         (.leaf 214 5))
        (.br 216
         (.leaf 215 5)
         (.br 217
          (.leaf 216 0)
          (.leaf 217 0))))
       (.br 220
        (.br 219
         (.leaf 218 0)
         (.leaf 219 1))
        (.br 221
         (.leaf 220 1)
         (.br 222
          (.leaf 221 0)
          (.leaf 222 0)))))))
    (.br 243
     (.br 233
      (.br 228
       (.br 225
        (.br 224
         (.leaf 223 13)
         (.leaf 224 0))
        (.br 226
         (.leaf 225 0)
         (.br 227
          (.leaf 226 0)
          (.leaf 227 0))))
       (.br 230
        (.br 229
         (.leaf 228 2)
         (.leaf 229 2))
        (.br 231
         (.leaf 230 2)
         (.br 232
          (.leaf 231 3)
          (.leaf 232 3)))))
      (.br 238
       (.br 235
        (.br 234
         (.leaf 233 3)
         (.leaf 234 3))
        (.br 236
         (.leaf 235 7)
         (.br 237
          (.leaf 236 7)
          (.leaf 237 7))))
       (.br 240
        (.br 239
         (.leaf 238 7)
         (.leaf 239 2))
        (.br 241
         (.leaf 240 0)
         (.br 242
          (.leaf 241 0)
          (.leaf 242 6))))))
     (.br 253
      (.br 248
       (.br 245
        (.br 244
         (.leaf 243 6)
         (.leaf 244 7))
        (.br 246
         (.leaf 245 7)
         (.br 247
          (.leaf 246 2)
          (.leaf 247 0))))
       (.br 250
        (.br 249
         (.leaf 248 3)
         (.leaf 249 0))
        (.br 251
         (.leaf 250 0)
         (.br 252
          (.leaf 251 1)
          (.leaf 252 4)))))
      (.br 258
       (.br 255
        (.br 254
         (.leaf 253 4)
         (.leaf 254 3))
        (.br 256
         (.leaf 255 0)
         (.br 257
          (.leaf 256 0)
          (.leaf 257 10))))
       (.br 260
        (.br 259
         (.leaf 258 0)
         (.leaf 259 5))
        (.br 261
         (.leaf 260 0)
         (.br 262
          (.leaf 261 0)
          (.leaf 262 7))))))))
   (.br 302
    (.br 282
     (.br 272
      (.br 267
       (.br 265
        (.br 264
         (.leaf 263 7)
         (.leaf 264 7))
        (.br 266
         (.leaf 265 7)
         (.leaf 266 7)))
       (.br 269
        (.br 268
         (.leaf 267 4)
         (.leaf 268 13))
        (.br 270
         (.leaf 269 3)
         (.br 271
          (.leaf 270 1)
          (.leaf 271 0)))))
      (.br 277
       (.br 274
        (.br 273
         (.leaf 272 0)
         (.leaf 273 1))
        (.br 275
         (.leaf 274 0)
         (.br 276
          (.leaf 275 0)
          (.leaf 276 0))))
       (.br 279
        (.br 278
         (.leaf 277 0)
         (.leaf 278 1))
        (.br 280
         (.leaf 279 0)
         (.br 281
          (.leaf 280 3)
          (.leaf 281 0))))))
     (.br 292
      (.br 287
       (.br 284
        (.br 283
         (.leaf 282 0)
         (.leaf 283 3))
        (.br 285
         (.leaf 284 0)
         (.br 286
          (.leaf 285 0)
          (.leaf 286 3))))
       (.br 289
        (.br 288
         (.leaf 287 1)
         (.leaf 288 0))
        (.br 290
         (.leaf 289 3)
         (.br 291
          (.leaf 290 0)
          (.leaf 291 0)))))
      (.br 297
       (.br 294
        (.br 293
         (.leaf 292 0)
         (.leaf 293 2))
        (.br 295
         (.leaf 294 1)
         (.br 296
          (.leaf 295 0)
          (.leaf 296 3))))
       (.br 299
        (.br 298
         (.leaf 297 0)
         (.leaf 298 0))
        (.br 300
         (.leaf 299 4)
         (.br 301
          (.leaf 300 1)
          (.leaf 301 2)))))))
    (.br 324
     (.br 312
      (.br 307
       (.br 304
        (.br 303
         (.leaf 302 3)
         (.leaf 303 1))
        (.br 305
         (.leaf 304 0)
         (.br 306
          (.leaf 305 2)
          (.leaf 306 1))))
       (.br 309
        (.br 308
         (.leaf 307 0)
         (.leaf 308 1))
        (.br 310
         (.leaf 309 0)
         (.br 311
          (.leaf 310 0)
          (.leaf 311 0)))))
      (.br 319
       (.br 315
        (.br 314
         (.leaf 312 0)
         (.leaf 314 4))
        (.br 316
         (.leaf 315 5)
         (.br 317
          (.leaf 316 4)
          (.leaf 317 10))))
       (.br 321
        (.br 320
         (.leaf 319 0)
         (.leaf 320 7))
        (.br 322
         (.leaf 321 6)
         (.br 323
          (.leaf 322 5)
          (.leaf 323 4))))))
     (.br 334
      (.br 329
       (.br 326
        (.br 325
         (.leaf 324 3)
         (.leaf 325 2))
        (.br 327
         (.leaf 326 1)
         (.br 328
          (.leaf 327 0)
          (.leaf 328 0))))
       (.br 331
        (.br 330
         (.leaf 329 0)
         (.leaf 330 0))
        (.br 332
         (.leaf 331 3)
         (.br 333
          (.leaf 332 0)
          (.leaf 333 0)))))
      (.br 339
       (.br 336
        (.br 335
         (.leaf 334 1)
         (.leaf 335 0))
        (.br 337
         (.leaf 336 13)
         (.br 338
          (.leaf 337 13)
          (.leaf 338 13))))
       (.br 341
        (.br 340
         (.leaf 339 7)
         (.leaf 340 7))
        (.br 342
         (.leaf 341 0)
         (.br 343
          (.leaf 342 0)
          (.leaf 343 0)))))))))

def sparqlCert : Cert where
  post k := (postTree.find k).getD 0
  first k := (firstTree.find k).getD 0
  rin k := (rinTree.find k).getD 0
  rout k := (routTree.find k).getD 0

/-- Bound on ranks. -/
def rankBound : Nat := 14

end Verif.Grammar
