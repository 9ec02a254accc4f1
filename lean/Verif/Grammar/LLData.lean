-- GENERATED by /verif/tools/gen_ll.py; do not edit.
import Verif.Grammar.LL
import Verif.Grammar.CertData
/-!
# LL(1) tables (data)

Not part of the code; checked by the kernel in `Verif.Grammar.LLCert`.
-/
namespace Verif.Grammar

def nullTree : KTree Bool :=
  (.br 263
   (.br 223
    (.br 203
     (.br 193
      (.br 188
       (.br 186
        (.br 185
         (.leaf 184 false)
         (.leaf 185 false))
        (.br 187
         (.leaf 186 true)
         (.leaf 187 false)))
       (.br 190
        (.br 189
         (.leaf 188 false)
         (.leaf 189 false))
        (.br 191
         (.leaf 190 false)
         (.br 192
          (.leaf 191 true)
          (.leaf 192 true)))))
      (.br 198
       (.br 195
        (.br 194
         (.leaf 193 true)
         (.leaf 194 false))
        (.br 196
         (.leaf 195 false)
         (.br 197
          (.leaf 196 false)
          (.leaf 197 false))))
       (.br 200
        (.br 199
         (.leaf 198 false)
         (.leaf 199 false))
        (.br 201
         (.leaf 200 false)
         (.br 202
          (.leaf 201 true)
          (.leaf 202 false))))))
     (.br 213
      (.br 208
       (.br 205
        (.br 204
         (.leaf 203 false)
         (.leaf 204 false))
        (.br 206
         (.leaf 205 false)
         (.br 207
          (.leaf 206 false)
          (.leaf 207 false))))
       (.br 210
        (.br 209
         (.leaf 208 false)
         (.leaf 209 false))
        (.br 211
         (.leaf 210 false)
         (.br 212
          (.leaf 211 false)
          (.leaf 212 false)))))
      (.br 218
       (.br 215
        (.br 214
         (.leaf 213 false)
         (.leaf 214 false))
        (.br 216
         (.leaf 215 false)
         (.br 217
          (.leaf 216 false)
          (.leaf 217 false))))
       (.br 220
        (.br 219
         (.leaf 218 false)
         (.leaf 219 false))
        (.br 221
         (.leaf 220 false)
         (.br 222
          (.leaf 221 false)
          (.leaf 222 false)))))))
    (.br 243
     (.br 233
      (.br 228
       (.br 225
        (.br 224
         (.leaf 223 false)
         (.leaf 224 false))
        (.br 226
         (.leaf 225 false)
         (.br 227
          (.leaf 226 false)
          (.leaf 227 false))))
       (.br 230
        (.br 229
         (.leaf 228 false)
         (.leaf 229 false))
        (.br 231
         (.leaf 230 false)
         (.br 232
          (.leaf 231 false)
          (.leaf 232 false)))))
      (.br 238
       (.br 235
        (.br 234
         (.leaf 233 false)
         (.leaf 234 false))
        (.br 236
         (.leaf 235 false)
         (.br 237
          (.leaf 236 false)
          (.leaf 237 false))))
       (.br 240
        (.br 239
         (.leaf 238 false)
         (.leaf 239 false))
        (.br 241
         (.leaf 240 false)
         (.br 242
          (.leaf 241 false)
          (.leaf 242 false))))))
     (.br 253
      (.br 248
       (.br 245
        (.br 244
         (.leaf 243 false)
         (.leaf 244 false))
        (.br 246
         (.leaf 245 false)
         (.br 247
          (.leaf 246 false)
          (.leaf 247 true))))
       (.br 250
        (.br 249
         (.leaf 248 false)
         (.leaf 249 false))
        (.br 251
         (.leaf 250 true)
         (.br 252
          (.leaf 251 false)
          (.leaf 252 false)))))
      (.br 258
       (.br 255
        (.br 254
         (.leaf 253 false)
         (.leaf 254 false))
        (.br 256
         (.leaf 255 false)
         (.br 257
          (.leaf 256 true)
          (.leaf 257 false))))
       (.br 260
        (.br 259
         (.leaf 258 true)
         (.leaf 259 false))
        (.br 261
         (.leaf 260 false)
         (.br 262
          (.leaf 261 false)
          (.leaf 262 false))))))))
   (.br 302
    (.br 282
     (.br 272
      (.br 267
       (.br 265
        (.br 264
         (.leaf 263 false)
         (.leaf 264 false))
        (.br 266
         (.leaf 265 false)
         (.leaf 266 false)))
       (.br 269
        (.br 268
         (.leaf 267 false)
         (.leaf 268 false))
        (.br 270
         (.leaf 269 false)
         (.br 271
          (.leaf 270 false)
          (.leaf 271 false)))))
      (.br 277
       (.br 274
        (.br 273
         (.leaf 272 false)
         (.leaf 273 false))
        (.br 275
         (.leaf 274 false)
         (.br 276
          (.leaf 275 false)
          (.leaf 276 false))))
       (.br 279
        (.br 278
         (.leaf 277 false)
         (.leaf 278 false))
        (.br 280
         (.leaf 279 false)
         (.br 281
          (.leaf 280 false)
          (.leaf 281 false))))))
     (.br 292
      (.br 287
       (.br 284
        (.br 283
         (.leaf 282 false)
         (.leaf 283 false))
        (.br 285
         (.leaf 284 false)
         (.br 286
          (.leaf 285 false)
          (.leaf 286 false))))
       (.br 289
        (.br 288
         (.leaf 287 false)
         (.leaf 288 false))
        (.br 290
         (.leaf 289 false)
         (.br 291
          (.leaf 290 false)
          (.leaf 291 true)))))
      (.br 297
       (.br 294
        (.br 293
         (.leaf 292 false)
         (.leaf 293 false))
        (.br 295
         (.leaf 294 false)
         (.br 296
          (.leaf 295 false)
          (.leaf 296 false))))
       (.br 299
        (.br 298
         (.leaf 297 false)
         (.leaf 298 true))
        (.br 300
         (.leaf 299 false)
         (.br 301
          (.leaf 300 false)
          (.leaf 301 false)))))))
    (.br 324
     (.br 312
      (.br 307
       (.br 304
        (.br 303
         (.leaf 302 false)
         (.leaf 303 false))
        (.br 305
         (.leaf 304 false)
         (.br 306
          (.leaf 305 false)
          (.leaf 306 false))))
       (.br 309
        (.br 308
         (.leaf 307 false)
         (.leaf 308 false))
        (.br 310
         (.leaf 309 false)
         (.br 311
          (.leaf 310 false)
          (.leaf 311 false)))))
      (.br 319
       (.br 315
        (.br 314
         (.leaf 312 false)
         (.leaf 314 false))
        (.br 316
         (.leaf 315 false)
         (.br 317
          (.leaf 316 false)
          (.leaf 317 false))))
       (.br 321
        (.br 320
         (.leaf 319 false)
         (.leaf 320 false))
        (.br 322
         (.leaf 321 false)
         (.br 323
          (.leaf 322 false)
          (.leaf 323 false))))))
     (.br 334
      (.br 329
       (.br 326
        (.br 325
         (.leaf 324 false)
         (.leaf 325 false))
        (.br 327
         (.leaf 326 false)
         (.br 328
          (.leaf 327 false)
          (.leaf 328 false))))
       (.br 331
        (.br 330
         (.leaf 329 false)
         (.leaf 330 false))
        (.br 332
         (.leaf 331 false)
         (.br 333
          (.leaf 332 false)
          (.leaf 333 false)))))
      (.br 339
       (.br 336
        (.br 335
         (.leaf 334 false)
         (.leaf 335 false))
        (.br 337
         (.leaf 336 false)
         (.br 338
          (.leaf 337 false)
          (.leaf 338 false))))
       (.br 341
        (.br 340
         (.leaf 339 false)
         (.leaf 340 false))
        (.br 342
         (.leaf 341 false)
         (.br 343
          (.leaf 342 false)
          (.leaf 343 false)))))))))

def followTree : KTree Mask :=
  (.br 263
   (.br 223
    (.br 203
     (.br 193
      (.br 188
       (.br 186
        (.br 185
         (.leaf 184 1)
         (.leaf 185 1))
        (.br 187
         (.leaf 186 4428592324837633)
         (.leaf 187 8589934593)))
       (.br 190
        (.br 189
         (.leaf 188 8589934593)
         (.leaf 189 8589934593))
        (.br 191
         (.leaf 190 8589934593)
         (.br 192
          (.leaf 191 262145)
          (.leaf 192 1)))))
      (.br 198
       (.br 195
        (.br 194
         (.leaf 193 1)
         (.leaf 194 45671926166590716193865151022388272956572729681))
        (.br 196
         (.leaf 195 45671926166590716193865151022388272956572729681)
         (.br 197
          (.leaf 196 45671926166590716193865151022388272956572729681)
          (.leaf 197 45671926166590716193865151022388272956572729681))))
       (.br 200
        (.br 199
         (.leaf 198 8585216)
         (.leaf 199 15477178369))
        (.br 201
         (.leaf 200 15468855297)
         (.br 202
          (.leaf 201 8590196737)
          (.leaf 202 262144))))))
     (.br 213
      (.br 208
       (.br 205
        (.br 204
         (.leaf 203 24519881817293937894954095625692268572368906893859453089)
         (.leaf 204 73786976312018087936))
        (.br 206
         (.leaf 205 8585216)
         (.br 207
          (.leaf 206 18014398509744128)
          (.leaf 207 24519835117749432555946787399040126175881537824584042657))))
       (.br 210
        (.br 209
         (.leaf 208 15477178369)
         (.leaf 209 15477178369))
        (.br 211
         (.leaf 210 15477178369)
         (.br 212
          (.leaf 211 24519835117749432555946787418382391474402630699159877793)
          (.leaf 212 24519881817293937894954095623835309979913063363594582177)))))
      (.br 218
       (.br 215
        (.br 214
         (.leaf 213 15435300865)
         (.leaf 214 15301083137))
        (.br 216
         (.leaf 215 15032647681)
         (.br 217
          (.leaf 216 8590196737)
          (.leaf 217 3065037781276283055724002266562484956884955147452811425))))
       (.br 220
        (.br 219
         (.leaf 218 24519881817293937894954095623835309961466319289851476129)
         (.leaf 219 24519881817293937894954095611301766140162381780716226721))
        (.br 221
         (.leaf 220 3065037781276283055724002266562258283293777404348336289)
         (.br 222
          (.leaf 221 24519881817293937894954095611301766140162381780582008993)
          (.leaf 222 3065037781276283055724002266562484956884955148660770977)))))))
    (.br 243
     (.br 233
      (.br 228
       (.br 225
        (.br 224
         (.leaf 223 24519881817293937894954095623835309961466319289717258401)
         (.leaf 224 12885164033))
        (.br 226
         (.leaf 225 10737680385)
         (.br 227
          (.leaf 226 24519835117749432555946787399040126224106082627580463265)
          (.leaf 227 17179869185))))
       (.br 230
        (.br 229
         (.leaf 228 17179869185)
         (.leaf 229 17179869185))
        (.br 231
         (.leaf 230 17179869185)
         (.br 232
          (.leaf 231 17179869185)
          (.leaf 232 17179869185)))))
      (.br 238
       (.br 235
        (.br 234
         (.leaf 233 17179869185)
         (.leaf 234 17179869185))
        (.br 236
         (.leaf 235 17179869185)
         (.br 237
          (.leaf 236 17179869185)
          (.leaf 237 17179869185))))
       (.br 240
        (.br 239
         (.leaf 238 17179869185)
         (.leaf 239 17179869185))
        (.br 241
         (.leaf 240 17179869185)
         (.br 242
          (.leaf 241 4415226380289)
          (.leaf 242 17179869185))))))
     (.br 253
      (.br 248
       (.br 245
        (.br 244
         (.leaf 243 4538801179394049)
         (.leaf 244 4538783999524864))
        (.br 246
         (.leaf 245 4503599627436032)
         (.br 247
          (.leaf 246 4503599627436032)
          (.leaf 247 262144))))
       (.br 250
        (.br 249
         (.leaf 248 24519835117749432555946787399040126175971609801654536352)
         (.leaf 249 90071992547672064))
        (.br 251
         (.leaf 250 262144)
         (.br 252
          (.leaf 251 48152487224435671040)
          (.leaf 252 90071992547672064)))))
      (.br 258
       (.br 255
        (.br 254
         (.leaf 253 48224544818473598976)
         (.leaf 254 619007920730189413180375040))
        (.br 256
         (.leaf 255 619007920730189413180375040)
         (.br 257
          (.leaf 256 37900943384087654432768)
          (.leaf 257 37901087499275730812928))))
       (.br 260
        (.br 259
         (.leaf 258 37852808911261728505856)
         (.leaf 259 37852953026449804886016))
        (.br 261
         (.leaf 260 24519835117749432555946787399040126224106082627580463264)
         (.br 262
          (.leaf 261 48224544818473598976)
          (.leaf 262 24519835117749432555946787399040126224106082627580463264))))))))
   (.br 302
    (.br 282
     (.br 272
      (.br 267
       (.br 265
        (.br 264
         (.leaf 263 24519835117749432555946787399040126224106082627580463264)
         (.leaf 264 24519835117749432555946787399040126224106082627580463264))
        (.br 266
         (.leaf 265 24519835117749432555946787399040126224106082627580463264)
         (.leaf 266 24519835117749432555946787399040126224106082627580463264)))
       (.br 269
        (.br 268
         (.leaf 267 24519835117749432555946787399040126224106082627580463264)
         (.leaf 268 24519835117749432555946787399040126224106082627580463264))
        (.br 270
         (.leaf 269 24519835117749432555946787399040126224106082627580463264)
         (.br 271
          (.leaf 270 24519835117749432555946787399040126224106082627580463265)
          (.leaf 271 24519835117749432555946787399040126224106082627580463265)))))
      (.br 277
       (.br 274
        (.br 273
         (.leaf 272 6129888627358766255646623073081427906794729596204097696)
         (.leaf 273 24519835117749432555946787418382388818065814858705565856))
        (.br 275
         (.leaf 274 24519835117749432555946787418382388818065814858705565856)
         (.br 276
          (.leaf 275 24519835117749432555946787418382388818065814858705565856)
          (.leaf 276 24519881817293937894954095623835309961466319289851476129))))
       (.br 279
        (.br 278
         (.leaf 277 24519881817293937894954095623835309961466319289851476129)
         (.leaf 278 262144))
        (.br 280
         (.leaf 279 24519835117749432555946787399040174849867576131215829152)
         (.br 281
          (.leaf 280 24519835117749432555946787399659144869510266268665391264)
          (.leaf 281 3064991081731777716716694054300845188402608577013874848))))))
     (.br 292
      (.br 287
       (.br 284
        (.br 283
         (.leaf 282 618970019786805325525417984)
         (.leaf 283 24519835117749432555946787400897084908795646543564515488))
        (.br 285
         (.leaf 284 3064991081731777716716694054300845188402608577013874848)
         (.br 286
          (.leaf 285 1237940039285380274899124224)
          (.leaf 286 6129888627358766255646623074319367946080109871103221920))))
       (.br 289
        (.br 288
         (.leaf 287 3064991081731777716716694054300618514811430834043617440)
         (.leaf 288 1237940039285380274899124224))
        (.br 290
         (.leaf 289 37779021934949710430208)
         (.br 291
          (.leaf 290 24519835117749432555946787399040164176408516848588171424)
          (.leaf 291 90071992547672064)))))
      (.br 297
       (.br 294
        (.br 293
         (.leaf 292 24519835117749432555946787399040126175881537809106864288)
         (.leaf 293 37779021934966890299392))
        (.br 295
         (.leaf 294 37852808911261728505856)
         (.br 296
          (.leaf 295 24519835117749432555946787399040164028834564258911758496)
          (.leaf 296 37827156407775636357120))))
       (.br 299
        (.br 298
         (.leaf 297 24519835117749432555946787399040174849867576131215829152)
         (.leaf 298 48224544818473598976))
        (.br 300
         (.leaf 299 24519835117749432555946787399040126175881537809106864288)
         (.br 301
          (.leaf 300 24519835117749432555946787399040126175881537809106864288)
          (.leaf 301 37827156407792816226304)))))))
    (.br 324
     (.br 312
      (.br 307
       (.br 304
        (.br 303
         (.leaf 302 24519835117749432555946787399040126175881537809106872480)
         (.leaf 303 37900943384087654432768))
        (.br 305
         (.leaf 304 24519835117749432555946787399040164076969037084837685408)
         (.br 306
          (.leaf 305 24519835117749432555946787399040126175881537809106872480)
          (.leaf 306 24519835117749432555946787399040126471029442988459698336))))
       (.br 309
        (.br 308
         (.leaf 307 24519835117749432555946787399040127061325253347165350048)
         (.leaf 308 24519835117749432555946787399040127061325253347165350048))
        (.br 310
         (.leaf 309 24519835117749432555946787399040134144874977651633186976)
         (.br 311
          (.leaf 310 24519835117749432555946787399040127061325253347165350048)
          (.leaf 311 24519835117749432555946787399040134144874977651633186976)))))
      (.br 319
       (.br 315
        (.br 314
         (.leaf 312 24519835117749432555946787399040134144874977651633186976)
         (.leaf 314 24519835117749432555946787399040164176408516848588171424))
        (.br 316
         (.leaf 315 24519835117749432555946787399040164176408516848588171424)
         (.br 317
          (.leaf 316 24519835117749432555946787399040174849867576131215829152)
          (.leaf 317 24519835117749432555946787399040174849867576131215829152))))
       (.br 321
        (.br 320
         (.leaf 319 24519835117749432555946787400897084908795646543564515488)
         (.leaf 320 73786976312018087936))
        (.br 322
         (.leaf 321 604536696783626605441024)
         (.br 323
          (.leaf 322 1813462516398255780147200)
          (.leaf 323 1813462516398255780147200))))))
     (.br 334
      (.br 329
       (.br 326
        (.br 325
         (.leaf 324 7581778351500123181187870720)
         (.leaf 325 7581778351500123181187870720))
        (.br 327
         (.leaf 326 47142196813745604529578075449399813231670010132312064)
         (.br 328
          (.leaf 327 24519835117749432555946787418382388818065814858705565856)
          (.leaf 328 24519835117749432555946787418382388818065814858705565856))))
       (.br 331
        (.br 330
         (.leaf 329 47142196813745604529578075449400403527480368837980160)
         (.leaf 330 47142196813745604529578075449400403527480368837980160))
        (.br 332
         (.leaf 331 47142196813745604529578076687340442812860643737104384)
         (.br 333
          (.leaf 332 3064991081731777716716694054300845188402608577013874848)
          (.leaf 333 1237940039285380274899124224)))))
      (.br 339
       (.br 336
        (.br 335
         (.leaf 334 47142196813745604529578075449400403527480368837980160)
         (.leaf 335 24519881817293937894954095623835309961466319289851476129))
        (.br 337
         (.leaf 336 24519881817293937894954095623835309961466319289851476129)
         (.br 338
          (.leaf 337 24519881817293937894954095623835309961466319289851476129)
          (.leaf 338 24519881817293937894954095623835309961466319289851476129))))
       (.br 341
        (.br 340
         (.leaf 339 24519881817293937894954095623835309961466319289851476129)
         (.leaf 340 24519881817293937894954095623835309961466319289851476129))
        (.br 342
         (.leaf 341 24519881885801827144840169936297337970577347505840617632)
         (.br 343
          (.leaf 342 24519835117749432555946787418382388818065814858705565856)
          (.leaf 343 24519835117749432555946787418382391474402630699159877793)))))))))

def ecTree : KTree Nat :=
  (.br 263
   (.br 223
    (.br 203
     (.br 193
      (.br 188
       (.br 186
        (.br 185
         (.leaf 184 4)
         (.leaf 185 4))
        (.br 187
         (.leaf 186 4)
         (.leaf 187 1)))
       (.br 190
        (.br 189
         (.leaf 188 1)
         (.leaf 189 1))
        (.br 191
         (.leaf 190 1)
         (.br 192
          (.leaf 191 3)
          (.leaf 192 7)))))
      (.br 198
       (.br 195
        (.br 194
         (.leaf 193 7)
         (.leaf 194 1))
        (.br 196
         (.leaf 195 1)
         (.br 197
          (.leaf 196 1)
          (.leaf 197 2))))
       (.br 200
        (.br 199
         (.leaf 198 1)
         (.leaf 199 1))
        (.br 201
         (.leaf 200 2)
         (.br 202
          (.leaf 201 7)
          (.leaf 202 1))))))
     (.br 213
      (.br 208
       (.br 205
        (.br 204
         (.leaf 203 2)
         (.leaf 204 5))
        (.br 206
         (.leaf 205 1)
         (.br 207
          (.leaf 206 5)
          (.leaf 207 4))))
       (.br 210
        (.br 209
         (.leaf 208 3)
         (.leaf 209 1))
        (.br 211
         (.leaf 210 3)
         (.br 212
          (.leaf 211 3)
          (.leaf 212 1)))))
      (.br 218
       (.br 215
        (.br 214
         (.leaf 213 1)
         (.leaf 214 1))
        (.br 216
         (.leaf 215 1)
         (.br 217
          (.leaf 216 2)
          (.leaf 217 4))))
       (.br 220
        (.br 219
         (.leaf 218 3)
         (.leaf 219 3))
        (.br 221
         (.leaf 220 4)
         (.br 222
          (.leaf 221 4)
          (.leaf 222 6)))))))
    (.br 243
     (.br 233
      (.br 228
       (.br 225
        (.br 224
         (.leaf 223 1)
         (.leaf 224 1))
        (.br 226
         (.leaf 225 1)
         (.br 227
          (.leaf 226 3)
          (.leaf 227 4))))
       (.br 230
        (.br 229
         (.leaf 228 1)
         (.leaf 229 1))
        (.br 231
         (.leaf 230 1)
         (.br 232
          (.leaf 231 1)
          (.leaf 232 1)))))
      (.br 238
       (.br 235
        (.br 234
         (.leaf 233 1)
         (.leaf 234 1))
        (.br 236
         (.leaf 235 1)
         (.br 237
          (.leaf 236 1)
          (.leaf 237 1))))
       (.br 240
        (.br 239
         (.leaf 238 3)
         (.leaf 239 1))
        (.br 241
         (.leaf 240 2)
         (.br 242
          (.leaf 241 5)
          (.leaf 242 1))))))
     (.br 253
      (.br 248
       (.br 245
        (.br 244
         (.leaf 243 1)
         (.leaf 244 1))
        (.br 246
         (.leaf 245 1)
         (.br 247
          (.leaf 246 1)
          (.leaf 247 7))))
       (.br 250
        (.br 249
         (.leaf 248 1)
         (.leaf 249 5))
        (.br 251
         (.leaf 250 7)
         (.br 252
          (.leaf 251 5)
          (.leaf 252 1)))))
      (.br 258
       (.br 255
        (.br 254
         (.leaf 253 1)
         (.leaf 254 1))
        (.br 256
         (.leaf 255 4)
         (.br 257
          (.leaf 256 4)
          (.leaf 257 1))))
       (.br 260
        (.br 259
         (.leaf 258 4)
         (.leaf 259 1))
        (.br 261
         (.leaf 260 2)
         (.br 262
          (.leaf 261 5)
          (.leaf 262 1))))))))
   (.br 302
    (.br 282
     (.br 272
      (.br 267
       (.br 265
        (.br 264
         (.leaf 263 1)
         (.leaf 264 1))
        (.br 266
         (.leaf 265 1)
         (.leaf 266 1)))
       (.br 269
        (.br 268
         (.leaf 267 1)
         (.leaf 268 1))
        (.br 270
         (.leaf 269 1)
         (.br 271
          (.leaf 270 2)
          (.leaf 271 2)))))
      (.br 277
       (.br 274
        (.br 273
         (.leaf 272 4)
         (.leaf 273 2))
        (.br 275
         (.leaf 274 3)
         (.br 276
          (.leaf 275 2)
          (.leaf 276 2))))
       (.br 279
        (.br 278
         (.leaf 277 2)
         (.leaf 278 5))
        (.br 280
         (.leaf 279 4)
         (.br 281
          (.leaf 280 1)
          (.leaf 281 4))))))
     (.br 292
      (.br 287
       (.br 284
        (.br 283
         (.leaf 282 4)
         (.leaf 283 1))
        (.br 285
         (.leaf 284 4)
         (.br 286
          (.leaf 285 4)
          (.leaf 286 1))))
       (.br 289
        (.br 288
         (.leaf 287 3)
         (.leaf 288 4))
        (.br 290
         (.leaf 289 5)
         (.br 291
          (.leaf 290 2)
          (.leaf 291 7)))))
      (.br 297
       (.br 294
        (.br 293
         (.leaf 292 5)
         (.leaf 293 5))
        (.br 295
         (.leaf 294 5)
         (.br 296
          (.leaf 295 5)
          (.leaf 296 6))))
       (.br 299
        (.br 298
         (.leaf 297 2)
         (.leaf 298 8))
        (.br 300
         (.leaf 299 5)
         (.br 301
          (.leaf 300 2)
          (.leaf 301 5)))))))
    (.br 324
     (.br 312
      (.br 307
       (.br 304
        (.br 303
         (.leaf 302 5)
         (.leaf 303 5))
        (.br 305
         (.leaf 304 5)
         (.br 306
          (.leaf 305 5)
          (.leaf 306 5))))
       (.br 309
        (.br 308
         (.leaf 307 5)
         (.leaf 308 4))
        (.br 310
         (.leaf 309 4)
         (.br 311
          (.leaf 310 2)
          (.leaf 311 5)))))
      (.br 319
       (.br 315
        (.br 314
         (.leaf 312 4)
         (.leaf 314 1))
        (.br 316
         (.leaf 315 1)
         (.br 317
          (.leaf 316 1)
          (.leaf 317 1))))
       (.br 321
        (.br 320
         (.leaf 319 2)
         (.leaf 320 5))
        (.br 322
         (.leaf 321 5)
         (.br 323
          (.leaf 322 5)
          (.leaf 323 5))))))
     (.br 334
      (.br 329
       (.br 326
        (.br 325
         (.leaf 324 5)
         (.leaf 325 5))
        (.br 327
         (.leaf 326 5)
         (.br 328
          (.leaf 327 2)
          (.leaf 328 2))))
       (.br 331
        (.br 330
         (.leaf 329 5)
         (.leaf 330 4))
        (.br 332
         (.leaf 331 1)
         (.br 333
          (.leaf 332 4)
          (.leaf 333 4)))))
      (.br 339
       (.br 336
        (.br 335
         (.leaf 334 3)
         (.leaf 335 2))
        (.br 337
         (.leaf 336 1)
         (.br 338
          (.leaf 337 1)
          (.leaf 338 1))))
       (.br 341
        (.br 340
         (.leaf 339 1)
         (.leaf 340 1))
        (.br 342
         (.leaf 341 2)
         (.br 343
          (.leaf 342 2)
          (.leaf 343 2)))))))))

def xcTree : KTree Nat :=
  (.br 263
   (.br 223
    (.br 203
     (.br 193
      (.br 188
       (.br 186
        (.br 185
         (.leaf 184 5)
         (.leaf 185 5))
        (.br 187
         (.leaf 186 1)
         (.leaf 187 4)))
       (.br 190
        (.br 189
         (.leaf 188 4)
         (.leaf 189 4))
        (.br 191
         (.leaf 190 4)
         (.br 192
          (.leaf 191 0)
          (.leaf 192 2)))))
      (.br 198
       (.br 195
        (.br 194
         (.leaf 193 2)
         (.leaf 194 0))
        (.br 196
         (.leaf 195 0)
         (.br 197
          (.leaf 196 0)
          (.leaf 197 0))))
       (.br 200
        (.br 199
         (.leaf 198 1)
         (.leaf 199 0))
        (.br 201
         (.leaf 200 0)
         (.br 202
          (.leaf 201 4)
          (.leaf 202 5))))))
     (.br 213
      (.br 208
       (.br 205
        (.br 204
         (.leaf 203 0)
         (.leaf 204 6))
        (.br 206
         (.leaf 205 0)
         (.br 207
          (.leaf 206 5)
          (.leaf 207 0))))
       (.br 210
        (.br 209
         (.leaf 208 0)
         (.leaf 209 0))
        (.br 211
         (.leaf 210 0)
         (.br 212
          (.leaf 211 0)
          (.leaf 212 0)))))
      (.br 218
       (.br 215
        (.br 214
         (.leaf 213 1)
         (.leaf 214 1))
        (.br 216
         (.leaf 215 1)
         (.br 217
          (.leaf 216 1)
          (.leaf 217 0))))
       (.br 220
        (.br 219
         (.leaf 218 0)
         (.leaf 219 0))
        (.br 221
         (.leaf 220 0)
         (.br 222
          (.leaf 221 0)
          (.leaf 222 0)))))))
    (.br 243
     (.br 233
      (.br 228
       (.br 225
        (.br 224
         (.leaf 223 0)
         (.leaf 224 0))
        (.br 226
         (.leaf 225 0)
         (.br 227
          (.leaf 226 0)
          (.leaf 227 1))))
       (.br 230
        (.br 229
         (.leaf 228 1)
         (.leaf 229 0))
        (.br 231
         (.leaf 230 0)
         (.br 232
          (.leaf 231 0)
          (.leaf 232 0)))))
      (.br 238
       (.br 235
        (.br 234
         (.leaf 233 0)
         (.leaf 234 0))
        (.br 236
         (.leaf 235 0)
         (.br 237
          (.leaf 236 0)
          (.leaf 237 0))))
       (.br 240
        (.br 239
         (.leaf 238 0)
         (.leaf 239 0))
        (.br 241
         (.leaf 240 0)
         (.br 242
          (.leaf 241 0)
          (.leaf 242 0))))))
     (.br 253
      (.br 248
       (.br 245
        (.br 244
         (.leaf 243 0)
         (.leaf 244 0))
        (.br 246
         (.leaf 245 0)
         (.br 247
          (.leaf 246 0)
          (.leaf 247 6))))
       (.br 250
        (.br 249
         (.leaf 248 0)
         (.leaf 249 4))
        (.br 251
         (.leaf 250 6)
         (.br 252
          (.leaf 251 5)
          (.leaf 252 4)))))
      (.br 258
       (.br 255
        (.br 254
         (.leaf 253 4)
         (.leaf 254 1))
        (.br 256
         (.leaf 255 0)
         (.br 257
          (.leaf 256 2)
          (.leaf 257 0))))
       (.br 260
        (.br 259
         (.leaf 258 2)
         (.leaf 259 0))
        (.br 261
         (.leaf 260 1)
         (.br 262
          (.leaf 261 4)
          (.leaf 262 1))))))))
   (.br 302
    (.br 282
     (.br 272
      (.br 267
       (.br 265
        (.br 264
         (.leaf 263 0)
         (.leaf 264 0))
        (.br 266
         (.leaf 265 0)
         (.leaf 266 0)))
       (.br 269
        (.br 268
         (.leaf 267 0)
         (.leaf 268 0))
        (.br 270
         (.leaf 269 0)
         (.br 271
          (.leaf 270 0)
          (.leaf 271 0)))))
      (.br 277
       (.br 274
        (.br 273
         (.leaf 272 1)
         (.leaf 273 1))
        (.br 275
         (.leaf 274 0)
         (.br 276
          (.leaf 275 0)
          (.leaf 276 0))))
       (.br 279
        (.br 278
         (.leaf 277 0)
         (.leaf 278 5))
        (.br 280
         (.leaf 279 1)
         (.br 281
          (.leaf 280 0)
          (.leaf 281 1))))))
     (.br 292
      (.br 287
       (.br 284
        (.br 283
         (.leaf 282 1)
         (.leaf 283 0))
        (.br 285
         (.leaf 284 1)
         (.br 286
          (.leaf 285 1)
          (.leaf 286 0))))
       (.br 289
        (.br 288
         (.leaf 287 0)
         (.leaf 288 1))
        (.br 290
         (.leaf 289 4)
         (.br 291
          (.leaf 290 0)
          (.leaf 291 4)))))
      (.br 297
       (.br 294
        (.br 293
         (.leaf 292 0)
         (.leaf 293 3))
        (.br 295
         (.leaf 294 2)
         (.br 296
          (.leaf 295 1)
          (.leaf 296 4))))
       (.br 299
        (.br 298
         (.leaf 297 0)
         (.leaf 298 4))
        (.br 300
         (.leaf 299 3)
         (.br 301
          (.leaf 300 0)
          (.leaf 301 3)))))))
    (.br 324
     (.br 312
      (.br 307
       (.br 304
        (.br 303
         (.leaf 302 3)
         (.leaf 303 2))
        (.br 305
         (.leaf 304 1)
         (.br 306
          (.leaf 305 3)
          (.leaf 306 2))))
       (.br 309
        (.br 308
         (.leaf 307 1)
         (.leaf 308 1))
        (.br 310
         (.leaf 309 0)
         (.br 311
          (.leaf 310 0)
          (.leaf 311 0)))))
      (.br 319
       (.br 315
        (.br 314
         (.leaf 312 0)
         (.leaf 314 0))
        (.br 316
         (.leaf 315 0)
         (.br 317
          (.leaf 316 0)
          (.leaf 317 0))))
       (.br 321
        (.br 320
         (.leaf 319 0)
         (.leaf 320 6))
        (.br 322
         (.leaf 321 5)
         (.br 323
          (.leaf 322 4)
          (.leaf 323 4))))))
     (.br 334
      (.br 329
       (.br 326
        (.br 325
         (.leaf 324 3)
         (.leaf 325 3))
        (.br 327
         (.leaf 326 2)
         (.br 328
          (.leaf 327 0)
          (.leaf 328 0))))
       (.br 331
        (.br 330
         (.leaf 329 1)
         (.leaf 330 1))
        (.br 332
         (.leaf 331 0)
         (.br 333
          (.leaf 332 0)
          (.leaf 333 1)))))
      (.br 339
       (.br 336
        (.br 335
         (.leaf 334 1)
         (.leaf 335 0))
        (.br 337
         (.leaf 336 0)
         (.br 338
          (.leaf 337 0)
          (.leaf 338 0))))
       (.br 341
        (.br 340
         (.leaf 339 0)
         (.leaf 340 0))
        (.br 342
         (.leaf 341 0)
         (.br 343
          (.leaf 342 0)
          (.leaf 343 0)))))))))

def sparqlLL : LL where
  null k := (nullTree.find k).getD false
  first k := (firstTree.find k).getD 0
  follow k := (followTree.find k).getD 0
  ec k := (ecTree.find k).getD 0
  xc k := (xcTree.find k).getD 0

end Verif.Grammar
